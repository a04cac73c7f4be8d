import Verif.Model.TriaTab3
import Verif.Lemmas.TriaChkBase

/-! Generated by tools/quad_tables.py: the moments of the tabulated rules. -/

namespace Verif

theorem triaTab38_rows : tabRows triaTab38 = true := by decide +kernel
theorem triaTab38_c0 : tabCol triaTab38 0 39 = true := by decide +kernel
theorem triaTab38_c1 : tabCol triaTab38 1 38 = true := by decide +kernel
theorem triaTab38_c2 : tabCol triaTab38 2 37 = true := by decide +kernel
theorem triaTab38_c3 : tabCol triaTab38 3 36 = true := by decide +kernel
theorem triaTab38_c4 : tabCol triaTab38 4 35 = true := by decide +kernel
theorem triaTab38_c5 : tabCol triaTab38 5 34 = true := by decide +kernel
theorem triaTab38_c6 : tabCol triaTab38 6 33 = true := by decide +kernel
theorem triaTab38_c7 : tabCol triaTab38 7 32 = true := by decide +kernel
theorem triaTab38_c8 : tabCol triaTab38 8 31 = true := by decide +kernel
theorem triaTab38_c9 : tabCol triaTab38 9 30 = true := by decide +kernel
theorem triaTab38_c10 : tabCol triaTab38 10 29 = true := by decide +kernel
theorem triaTab38_c11 : tabCol triaTab38 11 28 = true := by decide +kernel
theorem triaTab38_c12 : tabCol triaTab38 12 27 = true := by decide +kernel
theorem triaTab38_c13 : tabCol triaTab38 13 26 = true := by decide +kernel
theorem triaTab38_c14 : tabCol triaTab38 14 25 = true := by decide +kernel
theorem triaTab38_c15 : tabCol triaTab38 15 24 = true := by decide +kernel
theorem triaTab38_c16 : tabCol triaTab38 16 23 = true := by decide +kernel
theorem triaTab38_c17 : tabCol triaTab38 17 22 = true := by decide +kernel
theorem triaTab38_c18 : tabCol triaTab38 18 21 = true := by decide +kernel
theorem triaTab38_c19 : tabCol triaTab38 19 20 = true := by decide +kernel
theorem triaTab38_c20 : tabCol triaTab38 20 19 = true := by decide +kernel
theorem triaTab38_c21 : tabCol triaTab38 21 18 = true := by decide +kernel
theorem triaTab38_c22 : tabCol triaTab38 22 17 = true := by decide +kernel
theorem triaTab38_c23 : tabCol triaTab38 23 16 = true := by decide +kernel
theorem triaTab38_c24 : tabCol triaTab38 24 15 = true := by decide +kernel
theorem triaTab38_c25 : tabCol triaTab38 25 14 = true := by decide +kernel
theorem triaTab38_c26 : tabCol triaTab38 26 13 = true := by decide +kernel
theorem triaTab38_c27 : tabCol triaTab38 27 12 = true := by decide +kernel
theorem triaTab38_c28 : tabCol triaTab38 28 11 = true := by decide +kernel
theorem triaTab38_c29 : tabCol triaTab38 29 10 = true := by decide +kernel
theorem triaTab38_c30 : tabCol triaTab38 30 9 = true := by decide +kernel
theorem triaTab38_c31 : tabCol triaTab38 31 8 = true := by decide +kernel
theorem triaTab38_c32 : tabCol triaTab38 32 7 = true := by decide +kernel
theorem triaTab38_c33 : tabCol triaTab38 33 6 = true := by decide +kernel
theorem triaTab38_c34 : tabCol triaTab38 34 5 = true := by decide +kernel
theorem triaTab38_c35 : tabCol triaTab38 35 4 = true := by decide +kernel
theorem triaTab38_c36 : tabCol triaTab38 36 3 = true := by decide +kernel
theorem triaTab38_c37 : tabCol triaTab38 37 2 = true := by decide +kernel
theorem triaTab38_c38 : tabCol triaTab38 38 1 = true := by decide +kernel
theorem triaTab38_ok : TabOk 38 triaTab38 := ⟨triaTab38_rows,
  allLt_succ (allLt_succ (allLt_succ (allLt_succ (allLt_succ (allLt_succ (allLt_succ (allLt_succ (allLt_succ (allLt_succ (allLt_succ (allLt_succ (allLt_succ (allLt_succ (allLt_succ (allLt_succ (allLt_succ (allLt_succ (allLt_succ (allLt_succ (allLt_succ (allLt_succ (allLt_succ (allLt_succ (allLt_succ (allLt_succ (allLt_succ (allLt_succ (allLt_succ (allLt_succ (allLt_succ (allLt_succ (allLt_succ (allLt_succ (allLt_succ (allLt_succ (allLt_succ (allLt_succ (allLt_succ (allLt_zero) triaTab38_c0) triaTab38_c1) triaTab38_c2) triaTab38_c3) triaTab38_c4) triaTab38_c5) triaTab38_c6) triaTab38_c7) triaTab38_c8) triaTab38_c9) triaTab38_c10) triaTab38_c11) triaTab38_c12) triaTab38_c13) triaTab38_c14) triaTab38_c15) triaTab38_c16) triaTab38_c17) triaTab38_c18) triaTab38_c19) triaTab38_c20) triaTab38_c21) triaTab38_c22) triaTab38_c23) triaTab38_c24) triaTab38_c25) triaTab38_c26) triaTab38_c27) triaTab38_c28) triaTab38_c29) triaTab38_c30) triaTab38_c31) triaTab38_c32) triaTab38_c33) triaTab38_c34) triaTab38_c35) triaTab38_c36) triaTab38_c37) triaTab38_c38⟩

theorem triaTab39_rows : tabRows triaTab39 = true := by decide +kernel
theorem triaTab39_c0 : tabCol triaTab39 0 40 = true := by decide +kernel
theorem triaTab39_c1 : tabCol triaTab39 1 39 = true := by decide +kernel
theorem triaTab39_c2 : tabCol triaTab39 2 38 = true := by decide +kernel
theorem triaTab39_c3 : tabCol triaTab39 3 37 = true := by decide +kernel
theorem triaTab39_c4 : tabCol triaTab39 4 36 = true := by decide +kernel
theorem triaTab39_c5 : tabCol triaTab39 5 35 = true := by decide +kernel
theorem triaTab39_c6 : tabCol triaTab39 6 34 = true := by decide +kernel
theorem triaTab39_c7 : tabCol triaTab39 7 33 = true := by decide +kernel
theorem triaTab39_c8 : tabCol triaTab39 8 32 = true := by decide +kernel
theorem triaTab39_c9 : tabCol triaTab39 9 31 = true := by decide +kernel
theorem triaTab39_c10 : tabCol triaTab39 10 30 = true := by decide +kernel
theorem triaTab39_c11 : tabCol triaTab39 11 29 = true := by decide +kernel
theorem triaTab39_c12 : tabCol triaTab39 12 28 = true := by decide +kernel
theorem triaTab39_c13 : tabCol triaTab39 13 27 = true := by decide +kernel
theorem triaTab39_c14 : tabCol triaTab39 14 26 = true := by decide +kernel
theorem triaTab39_c15 : tabCol triaTab39 15 25 = true := by decide +kernel
theorem triaTab39_c16 : tabCol triaTab39 16 24 = true := by decide +kernel
theorem triaTab39_c17 : tabCol triaTab39 17 23 = true := by decide +kernel
theorem triaTab39_c18 : tabCol triaTab39 18 22 = true := by decide +kernel
theorem triaTab39_c19 : tabCol triaTab39 19 21 = true := by decide +kernel
theorem triaTab39_c20 : tabCol triaTab39 20 20 = true := by decide +kernel
theorem triaTab39_c21 : tabCol triaTab39 21 19 = true := by decide +kernel
theorem triaTab39_c22 : tabCol triaTab39 22 18 = true := by decide +kernel
theorem triaTab39_c23 : tabCol triaTab39 23 17 = true := by decide +kernel
theorem triaTab39_c24 : tabCol triaTab39 24 16 = true := by decide +kernel
theorem triaTab39_c25 : tabCol triaTab39 25 15 = true := by decide +kernel
theorem triaTab39_c26 : tabCol triaTab39 26 14 = true := by decide +kernel
theorem triaTab39_c27 : tabCol triaTab39 27 13 = true := by decide +kernel
theorem triaTab39_c28 : tabCol triaTab39 28 12 = true := by decide +kernel
theorem triaTab39_c29 : tabCol triaTab39 29 11 = true := by decide +kernel
theorem triaTab39_c30 : tabCol triaTab39 30 10 = true := by decide +kernel
theorem triaTab39_c31 : tabCol triaTab39 31 9 = true := by decide +kernel
theorem triaTab39_c32 : tabCol triaTab39 32 8 = true := by decide +kernel
theorem triaTab39_c33 : tabCol triaTab39 33 7 = true := by decide +kernel
theorem triaTab39_c34 : tabCol triaTab39 34 6 = true := by decide +kernel
theorem triaTab39_c35 : tabCol triaTab39 35 5 = true := by decide +kernel
theorem triaTab39_c36 : tabCol triaTab39 36 4 = true := by decide +kernel
theorem triaTab39_c37 : tabCol triaTab39 37 3 = true := by decide +kernel
theorem triaTab39_c38 : tabCol triaTab39 38 2 = true := by decide +kernel
theorem triaTab39_c39 : tabCol triaTab39 39 1 = true := by decide +kernel
theorem triaTab39_ok : TabOk 39 triaTab39 := ⟨triaTab39_rows,
  allLt_succ (allLt_succ (allLt_succ (allLt_succ (allLt_succ (allLt_succ (allLt_succ (allLt_succ (allLt_succ (allLt_succ (allLt_succ (allLt_succ (allLt_succ (allLt_succ (allLt_succ (allLt_succ (allLt_succ (allLt_succ (allLt_succ (allLt_succ (allLt_succ (allLt_succ (allLt_succ (allLt_succ (allLt_succ (allLt_succ (allLt_succ (allLt_succ (allLt_succ (allLt_succ (allLt_succ (allLt_succ (allLt_succ (allLt_succ (allLt_succ (allLt_succ (allLt_succ (allLt_succ (allLt_succ (allLt_succ (allLt_zero) triaTab39_c0) triaTab39_c1) triaTab39_c2) triaTab39_c3) triaTab39_c4) triaTab39_c5) triaTab39_c6) triaTab39_c7) triaTab39_c8) triaTab39_c9) triaTab39_c10) triaTab39_c11) triaTab39_c12) triaTab39_c13) triaTab39_c14) triaTab39_c15) triaTab39_c16) triaTab39_c17) triaTab39_c18) triaTab39_c19) triaTab39_c20) triaTab39_c21) triaTab39_c22) triaTab39_c23) triaTab39_c24) triaTab39_c25) triaTab39_c26) triaTab39_c27) triaTab39_c28) triaTab39_c29) triaTab39_c30) triaTab39_c31) triaTab39_c32) triaTab39_c33) triaTab39_c34) triaTab39_c35) triaTab39_c36) triaTab39_c37) triaTab39_c38) triaTab39_c39⟩

theorem triaTab40_rows : tabRows triaTab40 = true := by decide +kernel
theorem triaTab40_c0 : tabCol triaTab40 0 41 = true := by decide +kernel
theorem triaTab40_c1 : tabCol triaTab40 1 40 = true := by decide +kernel
theorem triaTab40_c2 : tabCol triaTab40 2 39 = true := by decide +kernel
theorem triaTab40_c3 : tabCol triaTab40 3 38 = true := by decide +kernel
theorem triaTab40_c4 : tabCol triaTab40 4 37 = true := by decide +kernel
theorem triaTab40_c5 : tabCol triaTab40 5 36 = true := by decide +kernel
theorem triaTab40_c6 : tabCol triaTab40 6 35 = true := by decide +kernel
theorem triaTab40_c7 : tabCol triaTab40 7 34 = true := by decide +kernel
theorem triaTab40_c8 : tabCol triaTab40 8 33 = true := by decide +kernel
theorem triaTab40_c9 : tabCol triaTab40 9 32 = true := by decide +kernel
theorem triaTab40_c10 : tabCol triaTab40 10 31 = true := by decide +kernel
theorem triaTab40_c11 : tabCol triaTab40 11 30 = true := by decide +kernel
theorem triaTab40_c12 : tabCol triaTab40 12 29 = true := by decide +kernel
theorem triaTab40_c13 : tabCol triaTab40 13 28 = true := by decide +kernel
theorem triaTab40_c14 : tabCol triaTab40 14 27 = true := by decide +kernel
theorem triaTab40_c15 : tabCol triaTab40 15 26 = true := by decide +kernel
theorem triaTab40_c16 : tabCol triaTab40 16 25 = true := by decide +kernel
theorem triaTab40_c17 : tabCol triaTab40 17 24 = true := by decide +kernel
theorem triaTab40_c18 : tabCol triaTab40 18 23 = true := by decide +kernel
theorem triaTab40_c19 : tabCol triaTab40 19 22 = true := by decide +kernel
theorem triaTab40_c20 : tabCol triaTab40 20 21 = true := by decide +kernel
theorem triaTab40_c21 : tabCol triaTab40 21 20 = true := by decide +kernel
theorem triaTab40_c22 : tabCol triaTab40 22 19 = true := by decide +kernel
theorem triaTab40_c23 : tabCol triaTab40 23 18 = true := by decide +kernel
theorem triaTab40_c24 : tabCol triaTab40 24 17 = true := by decide +kernel
theorem triaTab40_c25 : tabCol triaTab40 25 16 = true := by decide +kernel
theorem triaTab40_c26 : tabCol triaTab40 26 15 = true := by decide +kernel
theorem triaTab40_c27 : tabCol triaTab40 27 14 = true := by decide +kernel
theorem triaTab40_c28 : tabCol triaTab40 28 13 = true := by decide +kernel
theorem triaTab40_c29 : tabCol triaTab40 29 12 = true := by decide +kernel
theorem triaTab40_c30 : tabCol triaTab40 30 11 = true := by decide +kernel
theorem triaTab40_c31 : tabCol triaTab40 31 10 = true := by decide +kernel
theorem triaTab40_c32 : tabCol triaTab40 32 9 = true := by decide +kernel
theorem triaTab40_c33 : tabCol triaTab40 33 8 = true := by decide +kernel
theorem triaTab40_c34 : tabCol triaTab40 34 7 = true := by decide +kernel
theorem triaTab40_c35 : tabCol triaTab40 35 6 = true := by decide +kernel
theorem triaTab40_c36 : tabCol triaTab40 36 5 = true := by decide +kernel
theorem triaTab40_c37 : tabCol triaTab40 37 4 = true := by decide +kernel
theorem triaTab40_c38 : tabCol triaTab40 38 3 = true := by decide +kernel
theorem triaTab40_c39 : tabCol triaTab40 39 2 = true := by decide +kernel
theorem triaTab40_c40 : tabCol triaTab40 40 1 = true := by decide +kernel
theorem triaTab40_ok : TabOk 40 triaTab40 := ⟨triaTab40_rows,
  allLt_succ (allLt_succ (allLt_succ (allLt_succ (allLt_succ (allLt_succ (allLt_succ (allLt_succ (allLt_succ (allLt_succ (allLt_succ (allLt_succ (allLt_succ (allLt_succ (allLt_succ (allLt_succ (allLt_succ (allLt_succ (allLt_succ (allLt_succ (allLt_succ (allLt_succ (allLt_succ (allLt_succ (allLt_succ (allLt_succ (allLt_succ (allLt_succ (allLt_succ (allLt_succ (allLt_succ (allLt_succ (allLt_succ (allLt_succ (allLt_succ (allLt_succ (allLt_succ (allLt_succ (allLt_succ (allLt_succ (allLt_succ (allLt_zero) triaTab40_c0) triaTab40_c1) triaTab40_c2) triaTab40_c3) triaTab40_c4) triaTab40_c5) triaTab40_c6) triaTab40_c7) triaTab40_c8) triaTab40_c9) triaTab40_c10) triaTab40_c11) triaTab40_c12) triaTab40_c13) triaTab40_c14) triaTab40_c15) triaTab40_c16) triaTab40_c17) triaTab40_c18) triaTab40_c19) triaTab40_c20) triaTab40_c21) triaTab40_c22) triaTab40_c23) triaTab40_c24) triaTab40_c25) triaTab40_c26) triaTab40_c27) triaTab40_c28) triaTab40_c29) triaTab40_c30) triaTab40_c31) triaTab40_c32) triaTab40_c33) triaTab40_c34) triaTab40_c35) triaTab40_c36) triaTab40_c37) triaTab40_c38) triaTab40_c39) triaTab40_c40⟩

end Verif
