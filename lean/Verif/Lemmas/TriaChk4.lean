import Verif.Model.TriaTab4
import Verif.Lemmas.TriaChkBase

/-! Generated by tools/quad_tables.py: the moments of the tabulated rules. -/

namespace Verif

theorem triaTab41_rows : tabRows triaTab41 = true := by decide +kernel
theorem triaTab41_c0 : tabCol triaTab41 0 42 = true := by decide +kernel
theorem triaTab41_c1 : tabCol triaTab41 1 41 = true := by decide +kernel
theorem triaTab41_c2 : tabCol triaTab41 2 40 = true := by decide +kernel
theorem triaTab41_c3 : tabCol triaTab41 3 39 = true := by decide +kernel
theorem triaTab41_c4 : tabCol triaTab41 4 38 = true := by decide +kernel
theorem triaTab41_c5 : tabCol triaTab41 5 37 = true := by decide +kernel
theorem triaTab41_c6 : tabCol triaTab41 6 36 = true := by decide +kernel
theorem triaTab41_c7 : tabCol triaTab41 7 35 = true := by decide +kernel
theorem triaTab41_c8 : tabCol triaTab41 8 34 = true := by decide +kernel
theorem triaTab41_c9 : tabCol triaTab41 9 33 = true := by decide +kernel
theorem triaTab41_c10 : tabCol triaTab41 10 32 = true := by decide +kernel
theorem triaTab41_c11 : tabCol triaTab41 11 31 = true := by decide +kernel
theorem triaTab41_c12 : tabCol triaTab41 12 30 = true := by decide +kernel
theorem triaTab41_c13 : tabCol triaTab41 13 29 = true := by decide +kernel
theorem triaTab41_c14 : tabCol triaTab41 14 28 = true := by decide +kernel
theorem triaTab41_c15 : tabCol triaTab41 15 27 = true := by decide +kernel
theorem triaTab41_c16 : tabCol triaTab41 16 26 = true := by decide +kernel
theorem triaTab41_c17 : tabCol triaTab41 17 25 = true := by decide +kernel
theorem triaTab41_c18 : tabCol triaTab41 18 24 = true := by decide +kernel
theorem triaTab41_c19 : tabCol triaTab41 19 23 = true := by decide +kernel
theorem triaTab41_c20 : tabCol triaTab41 20 22 = true := by decide +kernel
theorem triaTab41_c21 : tabCol triaTab41 21 21 = true := by decide +kernel
theorem triaTab41_c22 : tabCol triaTab41 22 20 = true := by decide +kernel
theorem triaTab41_c23 : tabCol triaTab41 23 19 = true := by decide +kernel
theorem triaTab41_c24 : tabCol triaTab41 24 18 = true := by decide +kernel
theorem triaTab41_c25 : tabCol triaTab41 25 17 = true := by decide +kernel
theorem triaTab41_c26 : tabCol triaTab41 26 16 = true := by decide +kernel
theorem triaTab41_c27 : tabCol triaTab41 27 15 = true := by decide +kernel
theorem triaTab41_c28 : tabCol triaTab41 28 14 = true := by decide +kernel
theorem triaTab41_c29 : tabCol triaTab41 29 13 = true := by decide +kernel
theorem triaTab41_c30 : tabCol triaTab41 30 12 = true := by decide +kernel
theorem triaTab41_c31 : tabCol triaTab41 31 11 = true := by decide +kernel
theorem triaTab41_c32 : tabCol triaTab41 32 10 = true := by decide +kernel
theorem triaTab41_c33 : tabCol triaTab41 33 9 = true := by decide +kernel
theorem triaTab41_c34 : tabCol triaTab41 34 8 = true := by decide +kernel
theorem triaTab41_c35 : tabCol triaTab41 35 7 = true := by decide +kernel
theorem triaTab41_c36 : tabCol triaTab41 36 6 = true := by decide +kernel
theorem triaTab41_c37 : tabCol triaTab41 37 5 = true := by decide +kernel
theorem triaTab41_c38 : tabCol triaTab41 38 4 = true := by decide +kernel
theorem triaTab41_c39 : tabCol triaTab41 39 3 = true := by decide +kernel
theorem triaTab41_c40 : tabCol triaTab41 40 2 = true := by decide +kernel
theorem triaTab41_c41 : tabCol triaTab41 41 1 = true := by decide +kernel
theorem triaTab41_ok : TabOk 41 triaTab41 := ⟨triaTab41_rows,
  allLt_succ (allLt_succ (allLt_succ (allLt_succ (allLt_succ (allLt_succ (allLt_succ (allLt_succ (allLt_succ (allLt_succ (allLt_succ (allLt_succ (allLt_succ (allLt_succ (allLt_succ (allLt_succ (allLt_succ (allLt_succ (allLt_succ (allLt_succ (allLt_succ (allLt_succ (allLt_succ (allLt_succ (allLt_succ (allLt_succ (allLt_succ (allLt_succ (allLt_succ (allLt_succ (allLt_succ (allLt_succ (allLt_succ (allLt_succ (allLt_succ (allLt_succ (allLt_succ (allLt_succ (allLt_succ (allLt_succ (allLt_succ (allLt_succ (allLt_zero) triaTab41_c0) triaTab41_c1) triaTab41_c2) triaTab41_c3) triaTab41_c4) triaTab41_c5) triaTab41_c6) triaTab41_c7) triaTab41_c8) triaTab41_c9) triaTab41_c10) triaTab41_c11) triaTab41_c12) triaTab41_c13) triaTab41_c14) triaTab41_c15) triaTab41_c16) triaTab41_c17) triaTab41_c18) triaTab41_c19) triaTab41_c20) triaTab41_c21) triaTab41_c22) triaTab41_c23) triaTab41_c24) triaTab41_c25) triaTab41_c26) triaTab41_c27) triaTab41_c28) triaTab41_c29) triaTab41_c30) triaTab41_c31) triaTab41_c32) triaTab41_c33) triaTab41_c34) triaTab41_c35) triaTab41_c36) triaTab41_c37) triaTab41_c38) triaTab41_c39) triaTab41_c40) triaTab41_c41⟩

theorem triaTab42_rows : tabRows triaTab42 = true := by decide +kernel
theorem triaTab42_c0 : tabCol triaTab42 0 43 = true := by decide +kernel
theorem triaTab42_c1 : tabCol triaTab42 1 42 = true := by decide +kernel
theorem triaTab42_c2 : tabCol triaTab42 2 41 = true := by decide +kernel
theorem triaTab42_c3 : tabCol triaTab42 3 40 = true := by decide +kernel
theorem triaTab42_c4 : tabCol triaTab42 4 39 = true := by decide +kernel
theorem triaTab42_c5 : tabCol triaTab42 5 38 = true := by decide +kernel
theorem triaTab42_c6 : tabCol triaTab42 6 37 = true := by decide +kernel
theorem triaTab42_c7 : tabCol triaTab42 7 36 = true := by decide +kernel
theorem triaTab42_c8 : tabCol triaTab42 8 35 = true := by decide +kernel
theorem triaTab42_c9 : tabCol triaTab42 9 34 = true := by decide +kernel
theorem triaTab42_c10 : tabCol triaTab42 10 33 = true := by decide +kernel
theorem triaTab42_c11 : tabCol triaTab42 11 32 = true := by decide +kernel
theorem triaTab42_c12 : tabCol triaTab42 12 31 = true := by decide +kernel
theorem triaTab42_c13 : tabCol triaTab42 13 30 = true := by decide +kernel
theorem triaTab42_c14 : tabCol triaTab42 14 29 = true := by decide +kernel
theorem triaTab42_c15 : tabCol triaTab42 15 28 = true := by decide +kernel
theorem triaTab42_c16 : tabCol triaTab42 16 27 = true := by decide +kernel
theorem triaTab42_c17 : tabCol triaTab42 17 26 = true := by decide +kernel
theorem triaTab42_c18 : tabCol triaTab42 18 25 = true := by decide +kernel
theorem triaTab42_c19 : tabCol triaTab42 19 24 = true := by decide +kernel
theorem triaTab42_c20 : tabCol triaTab42 20 23 = true := by decide +kernel
theorem triaTab42_c21 : tabCol triaTab42 21 22 = true := by decide +kernel
theorem triaTab42_c22 : tabCol triaTab42 22 21 = true := by decide +kernel
theorem triaTab42_c23 : tabCol triaTab42 23 20 = true := by decide +kernel
theorem triaTab42_c24 : tabCol triaTab42 24 19 = true := by decide +kernel
theorem triaTab42_c25 : tabCol triaTab42 25 18 = true := by decide +kernel
theorem triaTab42_c26 : tabCol triaTab42 26 17 = true := by decide +kernel
theorem triaTab42_c27 : tabCol triaTab42 27 16 = true := by decide +kernel
theorem triaTab42_c28 : tabCol triaTab42 28 15 = true := by decide +kernel
theorem triaTab42_c29 : tabCol triaTab42 29 14 = true := by decide +kernel
theorem triaTab42_c30 : tabCol triaTab42 30 13 = true := by decide +kernel
theorem triaTab42_c31 : tabCol triaTab42 31 12 = true := by decide +kernel
theorem triaTab42_c32 : tabCol triaTab42 32 11 = true := by decide +kernel
theorem triaTab42_c33 : tabCol triaTab42 33 10 = true := by decide +kernel
theorem triaTab42_c34 : tabCol triaTab42 34 9 = true := by decide +kernel
theorem triaTab42_c35 : tabCol triaTab42 35 8 = true := by decide +kernel
theorem triaTab42_c36 : tabCol triaTab42 36 7 = true := by decide +kernel
theorem triaTab42_c37 : tabCol triaTab42 37 6 = true := by decide +kernel
theorem triaTab42_c38 : tabCol triaTab42 38 5 = true := by decide +kernel
theorem triaTab42_c39 : tabCol triaTab42 39 4 = true := by decide +kernel
theorem triaTab42_c40 : tabCol triaTab42 40 3 = true := by decide +kernel
theorem triaTab42_c41 : tabCol triaTab42 41 2 = true := by decide +kernel
theorem triaTab42_c42 : tabCol triaTab42 42 1 = true := by decide +kernel
theorem triaTab42_ok : TabOk 42 triaTab42 := ⟨triaTab42_rows,
  allLt_succ (allLt_succ (allLt_succ (allLt_succ (allLt_succ (allLt_succ (allLt_succ (allLt_succ (allLt_succ (allLt_succ (allLt_succ (allLt_succ (allLt_succ (allLt_succ (allLt_succ (allLt_succ (allLt_succ (allLt_succ (allLt_succ (allLt_succ (allLt_succ (allLt_succ (allLt_succ (allLt_succ (allLt_succ (allLt_succ (allLt_succ (allLt_succ (allLt_succ (allLt_succ (allLt_succ (allLt_succ (allLt_succ (allLt_succ (allLt_succ (allLt_succ (allLt_succ (allLt_succ (allLt_succ (allLt_succ (allLt_succ (allLt_succ (allLt_succ (allLt_zero) triaTab42_c0) triaTab42_c1) triaTab42_c2) triaTab42_c3) triaTab42_c4) triaTab42_c5) triaTab42_c6) triaTab42_c7) triaTab42_c8) triaTab42_c9) triaTab42_c10) triaTab42_c11) triaTab42_c12) triaTab42_c13) triaTab42_c14) triaTab42_c15) triaTab42_c16) triaTab42_c17) triaTab42_c18) triaTab42_c19) triaTab42_c20) triaTab42_c21) triaTab42_c22) triaTab42_c23) triaTab42_c24) triaTab42_c25) triaTab42_c26) triaTab42_c27) triaTab42_c28) triaTab42_c29) triaTab42_c30) triaTab42_c31) triaTab42_c32) triaTab42_c33) triaTab42_c34) triaTab42_c35) triaTab42_c36) triaTab42_c37) triaTab42_c38) triaTab42_c39) triaTab42_c40) triaTab42_c41) triaTab42_c42⟩

end Verif
