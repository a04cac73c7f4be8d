import Verif.Model.TriaTab2
import Verif.Lemmas.TriaChkBase

/-! Generated by tools/quad_tables.py: the moments of the tabulated rules. -/

namespace Verif

theorem triaTab33_rows : tabRows triaTab33 = true := by decide +kernel
theorem triaTab33_c0 : tabCol triaTab33 0 34 = true := by decide +kernel
theorem triaTab33_c1 : tabCol triaTab33 1 33 = true := by decide +kernel
theorem triaTab33_c2 : tabCol triaTab33 2 32 = true := by decide +kernel
theorem triaTab33_c3 : tabCol triaTab33 3 31 = true := by decide +kernel
theorem triaTab33_c4 : tabCol triaTab33 4 30 = true := by decide +kernel
theorem triaTab33_c5 : tabCol triaTab33 5 29 = true := by decide +kernel
theorem triaTab33_c6 : tabCol triaTab33 6 28 = true := by decide +kernel
theorem triaTab33_c7 : tabCol triaTab33 7 27 = true := by decide +kernel
theorem triaTab33_c8 : tabCol triaTab33 8 26 = true := by decide +kernel
theorem triaTab33_c9 : tabCol triaTab33 9 25 = true := by decide +kernel
theorem triaTab33_c10 : tabCol triaTab33 10 24 = true := by decide +kernel
theorem triaTab33_c11 : tabCol triaTab33 11 23 = true := by decide +kernel
theorem triaTab33_c12 : tabCol triaTab33 12 22 = true := by decide +kernel
theorem triaTab33_c13 : tabCol triaTab33 13 21 = true := by decide +kernel
theorem triaTab33_c14 : tabCol triaTab33 14 20 = true := by decide +kernel
theorem triaTab33_c15 : tabCol triaTab33 15 19 = true := by decide +kernel
theorem triaTab33_c16 : tabCol triaTab33 16 18 = true := by decide +kernel
theorem triaTab33_c17 : tabCol triaTab33 17 17 = true := by decide +kernel
theorem triaTab33_c18 : tabCol triaTab33 18 16 = true := by decide +kernel
theorem triaTab33_c19 : tabCol triaTab33 19 15 = true := by decide +kernel
theorem triaTab33_c20 : tabCol triaTab33 20 14 = true := by decide +kernel
theorem triaTab33_c21 : tabCol triaTab33 21 13 = true := by decide +kernel
theorem triaTab33_c22 : tabCol triaTab33 22 12 = true := by decide +kernel
theorem triaTab33_c23 : tabCol triaTab33 23 11 = true := by decide +kernel
theorem triaTab33_c24 : tabCol triaTab33 24 10 = true := by decide +kernel
theorem triaTab33_c25 : tabCol triaTab33 25 9 = true := by decide +kernel
theorem triaTab33_c26 : tabCol triaTab33 26 8 = true := by decide +kernel
theorem triaTab33_c27 : tabCol triaTab33 27 7 = true := by decide +kernel
theorem triaTab33_c28 : tabCol triaTab33 28 6 = true := by decide +kernel
theorem triaTab33_c29 : tabCol triaTab33 29 5 = true := by decide +kernel
theorem triaTab33_c30 : tabCol triaTab33 30 4 = true := by decide +kernel
theorem triaTab33_c31 : tabCol triaTab33 31 3 = true := by decide +kernel
theorem triaTab33_c32 : tabCol triaTab33 32 2 = true := by decide +kernel
theorem triaTab33_c33 : tabCol triaTab33 33 1 = true := by decide +kernel
theorem triaTab33_ok : TabOk 33 triaTab33 := ⟨triaTab33_rows,
  allLt_succ (allLt_succ (allLt_succ (allLt_succ (allLt_succ (allLt_succ (allLt_succ (allLt_succ (allLt_succ (allLt_succ (allLt_succ (allLt_succ (allLt_succ (allLt_succ (allLt_succ (allLt_succ (allLt_succ (allLt_succ (allLt_succ (allLt_succ (allLt_succ (allLt_succ (allLt_succ (allLt_succ (allLt_succ (allLt_succ (allLt_succ (allLt_succ (allLt_succ (allLt_succ (allLt_succ (allLt_succ (allLt_succ (allLt_succ (allLt_zero) triaTab33_c0) triaTab33_c1) triaTab33_c2) triaTab33_c3) triaTab33_c4) triaTab33_c5) triaTab33_c6) triaTab33_c7) triaTab33_c8) triaTab33_c9) triaTab33_c10) triaTab33_c11) triaTab33_c12) triaTab33_c13) triaTab33_c14) triaTab33_c15) triaTab33_c16) triaTab33_c17) triaTab33_c18) triaTab33_c19) triaTab33_c20) triaTab33_c21) triaTab33_c22) triaTab33_c23) triaTab33_c24) triaTab33_c25) triaTab33_c26) triaTab33_c27) triaTab33_c28) triaTab33_c29) triaTab33_c30) triaTab33_c31) triaTab33_c32) triaTab33_c33⟩

theorem triaTab34_rows : tabRows triaTab34 = true := by decide +kernel
theorem triaTab34_c0 : tabCol triaTab34 0 35 = true := by decide +kernel
theorem triaTab34_c1 : tabCol triaTab34 1 34 = true := by decide +kernel
theorem triaTab34_c2 : tabCol triaTab34 2 33 = true := by decide +kernel
theorem triaTab34_c3 : tabCol triaTab34 3 32 = true := by decide +kernel
theorem triaTab34_c4 : tabCol triaTab34 4 31 = true := by decide +kernel
theorem triaTab34_c5 : tabCol triaTab34 5 30 = true := by decide +kernel
theorem triaTab34_c6 : tabCol triaTab34 6 29 = true := by decide +kernel
theorem triaTab34_c7 : tabCol triaTab34 7 28 = true := by decide +kernel
theorem triaTab34_c8 : tabCol triaTab34 8 27 = true := by decide +kernel
theorem triaTab34_c9 : tabCol triaTab34 9 26 = true := by decide +kernel
theorem triaTab34_c10 : tabCol triaTab34 10 25 = true := by decide +kernel
theorem triaTab34_c11 : tabCol triaTab34 11 24 = true := by decide +kernel
theorem triaTab34_c12 : tabCol triaTab34 12 23 = true := by decide +kernel
theorem triaTab34_c13 : tabCol triaTab34 13 22 = true := by decide +kernel
theorem triaTab34_c14 : tabCol triaTab34 14 21 = true := by decide +kernel
theorem triaTab34_c15 : tabCol triaTab34 15 20 = true := by decide +kernel
theorem triaTab34_c16 : tabCol triaTab34 16 19 = true := by decide +kernel
theorem triaTab34_c17 : tabCol triaTab34 17 18 = true := by decide +kernel
theorem triaTab34_c18 : tabCol triaTab34 18 17 = true := by decide +kernel
theorem triaTab34_c19 : tabCol triaTab34 19 16 = true := by decide +kernel
theorem triaTab34_c20 : tabCol triaTab34 20 15 = true := by decide +kernel
theorem triaTab34_c21 : tabCol triaTab34 21 14 = true := by decide +kernel
theorem triaTab34_c22 : tabCol triaTab34 22 13 = true := by decide +kernel
theorem triaTab34_c23 : tabCol triaTab34 23 12 = true := by decide +kernel
theorem triaTab34_c24 : tabCol triaTab34 24 11 = true := by decide +kernel
theorem triaTab34_c25 : tabCol triaTab34 25 10 = true := by decide +kernel
theorem triaTab34_c26 : tabCol triaTab34 26 9 = true := by decide +kernel
theorem triaTab34_c27 : tabCol triaTab34 27 8 = true := by decide +kernel
theorem triaTab34_c28 : tabCol triaTab34 28 7 = true := by decide +kernel
theorem triaTab34_c29 : tabCol triaTab34 29 6 = true := by decide +kernel
theorem triaTab34_c30 : tabCol triaTab34 30 5 = true := by decide +kernel
theorem triaTab34_c31 : tabCol triaTab34 31 4 = true := by decide +kernel
theorem triaTab34_c32 : tabCol triaTab34 32 3 = true := by decide +kernel
theorem triaTab34_c33 : tabCol triaTab34 33 2 = true := by decide +kernel
theorem triaTab34_c34 : tabCol triaTab34 34 1 = true := by decide +kernel
theorem triaTab34_ok : TabOk 34 triaTab34 := ⟨triaTab34_rows,
  allLt_succ (allLt_succ (allLt_succ (allLt_succ (allLt_succ (allLt_succ (allLt_succ (allLt_succ (allLt_succ (allLt_succ (allLt_succ (allLt_succ (allLt_succ (allLt_succ (allLt_succ (allLt_succ (allLt_succ (allLt_succ (allLt_succ (allLt_succ (allLt_succ (allLt_succ (allLt_succ (allLt_succ (allLt_succ (allLt_succ (allLt_succ (allLt_succ (allLt_succ (allLt_succ (allLt_succ (allLt_succ (allLt_succ (allLt_succ (allLt_succ (allLt_zero) triaTab34_c0) triaTab34_c1) triaTab34_c2) triaTab34_c3) triaTab34_c4) triaTab34_c5) triaTab34_c6) triaTab34_c7) triaTab34_c8) triaTab34_c9) triaTab34_c10) triaTab34_c11) triaTab34_c12) triaTab34_c13) triaTab34_c14) triaTab34_c15) triaTab34_c16) triaTab34_c17) triaTab34_c18) triaTab34_c19) triaTab34_c20) triaTab34_c21) triaTab34_c22) triaTab34_c23) triaTab34_c24) triaTab34_c25) triaTab34_c26) triaTab34_c27) triaTab34_c28) triaTab34_c29) triaTab34_c30) triaTab34_c31) triaTab34_c32) triaTab34_c33) triaTab34_c34⟩

theorem triaTab35_rows : tabRows triaTab35 = true := by decide +kernel
theorem triaTab35_c0 : tabCol triaTab35 0 36 = true := by decide +kernel
theorem triaTab35_c1 : tabCol triaTab35 1 35 = true := by decide +kernel
theorem triaTab35_c2 : tabCol triaTab35 2 34 = true := by decide +kernel
theorem triaTab35_c3 : tabCol triaTab35 3 33 = true := by decide +kernel
theorem triaTab35_c4 : tabCol triaTab35 4 32 = true := by decide +kernel
theorem triaTab35_c5 : tabCol triaTab35 5 31 = true := by decide +kernel
theorem triaTab35_c6 : tabCol triaTab35 6 30 = true := by decide +kernel
theorem triaTab35_c7 : tabCol triaTab35 7 29 = true := by decide +kernel
theorem triaTab35_c8 : tabCol triaTab35 8 28 = true := by decide +kernel
theorem triaTab35_c9 : tabCol triaTab35 9 27 = true := by decide +kernel
theorem triaTab35_c10 : tabCol triaTab35 10 26 = true := by decide +kernel
theorem triaTab35_c11 : tabCol triaTab35 11 25 = true := by decide +kernel
theorem triaTab35_c12 : tabCol triaTab35 12 24 = true := by decide +kernel
theorem triaTab35_c13 : tabCol triaTab35 13 23 = true := by decide +kernel
theorem triaTab35_c14 : tabCol triaTab35 14 22 = true := by decide +kernel
theorem triaTab35_c15 : tabCol triaTab35 15 21 = true := by decide +kernel
theorem triaTab35_c16 : tabCol triaTab35 16 20 = true := by decide +kernel
theorem triaTab35_c17 : tabCol triaTab35 17 19 = true := by decide +kernel
theorem triaTab35_c18 : tabCol triaTab35 18 18 = true := by decide +kernel
theorem triaTab35_c19 : tabCol triaTab35 19 17 = true := by decide +kernel
theorem triaTab35_c20 : tabCol triaTab35 20 16 = true := by decide +kernel
theorem triaTab35_c21 : tabCol triaTab35 21 15 = true := by decide +kernel
theorem triaTab35_c22 : tabCol triaTab35 22 14 = true := by decide +kernel
theorem triaTab35_c23 : tabCol triaTab35 23 13 = true := by decide +kernel
theorem triaTab35_c24 : tabCol triaTab35 24 12 = true := by decide +kernel
theorem triaTab35_c25 : tabCol triaTab35 25 11 = true := by decide +kernel
theorem triaTab35_c26 : tabCol triaTab35 26 10 = true := by decide +kernel
theorem triaTab35_c27 : tabCol triaTab35 27 9 = true := by decide +kernel
theorem triaTab35_c28 : tabCol triaTab35 28 8 = true := by decide +kernel
theorem triaTab35_c29 : tabCol triaTab35 29 7 = true := by decide +kernel
theorem triaTab35_c30 : tabCol triaTab35 30 6 = true := by decide +kernel
theorem triaTab35_c31 : tabCol triaTab35 31 5 = true := by decide +kernel
theorem triaTab35_c32 : tabCol triaTab35 32 4 = true := by decide +kernel
theorem triaTab35_c33 : tabCol triaTab35 33 3 = true := by decide +kernel
theorem triaTab35_c34 : tabCol triaTab35 34 2 = true := by decide +kernel
theorem triaTab35_c35 : tabCol triaTab35 35 1 = true := by decide +kernel
theorem triaTab35_ok : TabOk 35 triaTab35 := ⟨triaTab35_rows,
  allLt_succ (allLt_succ (allLt_succ (allLt_succ (allLt_succ (allLt_succ (allLt_succ (allLt_succ (allLt_succ (allLt_succ (allLt_succ (allLt_succ (allLt_succ (allLt_succ (allLt_succ (allLt_succ (allLt_succ (allLt_succ (allLt_succ (allLt_succ (allLt_succ (allLt_succ (allLt_succ (allLt_succ (allLt_succ (allLt_succ (allLt_succ (allLt_succ (allLt_succ (allLt_succ (allLt_succ (allLt_succ (allLt_succ (allLt_succ (allLt_succ (allLt_succ (allLt_zero) triaTab35_c0) triaTab35_c1) triaTab35_c2) triaTab35_c3) triaTab35_c4) triaTab35_c5) triaTab35_c6) triaTab35_c7) triaTab35_c8) triaTab35_c9) triaTab35_c10) triaTab35_c11) triaTab35_c12) triaTab35_c13) triaTab35_c14) triaTab35_c15) triaTab35_c16) triaTab35_c17) triaTab35_c18) triaTab35_c19) triaTab35_c20) triaTab35_c21) triaTab35_c22) triaTab35_c23) triaTab35_c24) triaTab35_c25) triaTab35_c26) triaTab35_c27) triaTab35_c28) triaTab35_c29) triaTab35_c30) triaTab35_c31) triaTab35_c32) triaTab35_c33) triaTab35_c34) triaTab35_c35⟩

theorem triaTab36_rows : tabRows triaTab36 = true := by decide +kernel
theorem triaTab36_c0 : tabCol triaTab36 0 37 = true := by decide +kernel
theorem triaTab36_c1 : tabCol triaTab36 1 36 = true := by decide +kernel
theorem triaTab36_c2 : tabCol triaTab36 2 35 = true := by decide +kernel
theorem triaTab36_c3 : tabCol triaTab36 3 34 = true := by decide +kernel
theorem triaTab36_c4 : tabCol triaTab36 4 33 = true := by decide +kernel
theorem triaTab36_c5 : tabCol triaTab36 5 32 = true := by decide +kernel
theorem triaTab36_c6 : tabCol triaTab36 6 31 = true := by decide +kernel
theorem triaTab36_c7 : tabCol triaTab36 7 30 = true := by decide +kernel
theorem triaTab36_c8 : tabCol triaTab36 8 29 = true := by decide +kernel
theorem triaTab36_c9 : tabCol triaTab36 9 28 = true := by decide +kernel
theorem triaTab36_c10 : tabCol triaTab36 10 27 = true := by decide +kernel
theorem triaTab36_c11 : tabCol triaTab36 11 26 = true := by decide +kernel
theorem triaTab36_c12 : tabCol triaTab36 12 25 = true := by decide +kernel
theorem triaTab36_c13 : tabCol triaTab36 13 24 = true := by decide +kernel
theorem triaTab36_c14 : tabCol triaTab36 14 23 = true := by decide +kernel
theorem triaTab36_c15 : tabCol triaTab36 15 22 = true := by decide +kernel
theorem triaTab36_c16 : tabCol triaTab36 16 21 = true := by decide +kernel
theorem triaTab36_c17 : tabCol triaTab36 17 20 = true := by decide +kernel
theorem triaTab36_c18 : tabCol triaTab36 18 19 = true := by decide +kernel
theorem triaTab36_c19 : tabCol triaTab36 19 18 = true := by decide +kernel
theorem triaTab36_c20 : tabCol triaTab36 20 17 = true := by decide +kernel
theorem triaTab36_c21 : tabCol triaTab36 21 16 = true := by decide +kernel
theorem triaTab36_c22 : tabCol triaTab36 22 15 = true := by decide +kernel
theorem triaTab36_c23 : tabCol triaTab36 23 14 = true := by decide +kernel
theorem triaTab36_c24 : tabCol triaTab36 24 13 = true := by decide +kernel
theorem triaTab36_c25 : tabCol triaTab36 25 12 = true := by decide +kernel
theorem triaTab36_c26 : tabCol triaTab36 26 11 = true := by decide +kernel
theorem triaTab36_c27 : tabCol triaTab36 27 10 = true := by decide +kernel
theorem triaTab36_c28 : tabCol triaTab36 28 9 = true := by decide +kernel
theorem triaTab36_c29 : tabCol triaTab36 29 8 = true := by decide +kernel
theorem triaTab36_c30 : tabCol triaTab36 30 7 = true := by decide +kernel
theorem triaTab36_c31 : tabCol triaTab36 31 6 = true := by decide +kernel
theorem triaTab36_c32 : tabCol triaTab36 32 5 = true := by decide +kernel
theorem triaTab36_c33 : tabCol triaTab36 33 4 = true := by decide +kernel
theorem triaTab36_c34 : tabCol triaTab36 34 3 = true := by decide +kernel
theorem triaTab36_c35 : tabCol triaTab36 35 2 = true := by decide +kernel
theorem triaTab36_c36 : tabCol triaTab36 36 1 = true := by decide +kernel
theorem triaTab36_ok : TabOk 36 triaTab36 := ⟨triaTab36_rows,
  allLt_succ (allLt_succ (allLt_succ (allLt_succ (allLt_succ (allLt_succ (allLt_succ (allLt_succ (allLt_succ (allLt_succ (allLt_succ (allLt_succ (allLt_succ (allLt_succ (allLt_succ (allLt_succ (allLt_succ (allLt_succ (allLt_succ (allLt_succ (allLt_succ (allLt_succ (allLt_succ (allLt_succ (allLt_succ (allLt_succ (allLt_succ (allLt_succ (allLt_succ (allLt_succ (allLt_succ (allLt_succ (allLt_succ (allLt_succ (allLt_succ (allLt_succ (allLt_succ (allLt_zero) triaTab36_c0) triaTab36_c1) triaTab36_c2) triaTab36_c3) triaTab36_c4) triaTab36_c5) triaTab36_c6) triaTab36_c7) triaTab36_c8) triaTab36_c9) triaTab36_c10) triaTab36_c11) triaTab36_c12) triaTab36_c13) triaTab36_c14) triaTab36_c15) triaTab36_c16) triaTab36_c17) triaTab36_c18) triaTab36_c19) triaTab36_c20) triaTab36_c21) triaTab36_c22) triaTab36_c23) triaTab36_c24) triaTab36_c25) triaTab36_c26) triaTab36_c27) triaTab36_c28) triaTab36_c29) triaTab36_c30) triaTab36_c31) triaTab36_c32) triaTab36_c33) triaTab36_c34) triaTab36_c35) triaTab36_c36⟩

theorem triaTab37_rows : tabRows triaTab37 = true := by decide +kernel
theorem triaTab37_c0 : tabCol triaTab37 0 38 = true := by decide +kernel
theorem triaTab37_c1 : tabCol triaTab37 1 37 = true := by decide +kernel
theorem triaTab37_c2 : tabCol triaTab37 2 36 = true := by decide +kernel
theorem triaTab37_c3 : tabCol triaTab37 3 35 = true := by decide +kernel
theorem triaTab37_c4 : tabCol triaTab37 4 34 = true := by decide +kernel
theorem triaTab37_c5 : tabCol triaTab37 5 33 = true := by decide +kernel
theorem triaTab37_c6 : tabCol triaTab37 6 32 = true := by decide +kernel
theorem triaTab37_c7 : tabCol triaTab37 7 31 = true := by decide +kernel
theorem triaTab37_c8 : tabCol triaTab37 8 30 = true := by decide +kernel
theorem triaTab37_c9 : tabCol triaTab37 9 29 = true := by decide +kernel
theorem triaTab37_c10 : tabCol triaTab37 10 28 = true := by decide +kernel
theorem triaTab37_c11 : tabCol triaTab37 11 27 = true := by decide +kernel
theorem triaTab37_c12 : tabCol triaTab37 12 26 = true := by decide +kernel
theorem triaTab37_c13 : tabCol triaTab37 13 25 = true := by decide +kernel
theorem triaTab37_c14 : tabCol triaTab37 14 24 = true := by decide +kernel
theorem triaTab37_c15 : tabCol triaTab37 15 23 = true := by decide +kernel
theorem triaTab37_c16 : tabCol triaTab37 16 22 = true := by decide +kernel
theorem triaTab37_c17 : tabCol triaTab37 17 21 = true := by decide +kernel
theorem triaTab37_c18 : tabCol triaTab37 18 20 = true := by decide +kernel
theorem triaTab37_c19 : tabCol triaTab37 19 19 = true := by decide +kernel
theorem triaTab37_c20 : tabCol triaTab37 20 18 = true := by decide +kernel
theorem triaTab37_c21 : tabCol triaTab37 21 17 = true := by decide +kernel
theorem triaTab37_c22 : tabCol triaTab37 22 16 = true := by decide +kernel
theorem triaTab37_c23 : tabCol triaTab37 23 15 = true := by decide +kernel
theorem triaTab37_c24 : tabCol triaTab37 24 14 = true := by decide +kernel
theorem triaTab37_c25 : tabCol triaTab37 25 13 = true := by decide +kernel
theorem triaTab37_c26 : tabCol triaTab37 26 12 = true := by decide +kernel
theorem triaTab37_c27 : tabCol triaTab37 27 11 = true := by decide +kernel
theorem triaTab37_c28 : tabCol triaTab37 28 10 = true := by decide +kernel
theorem triaTab37_c29 : tabCol triaTab37 29 9 = true := by decide +kernel
theorem triaTab37_c30 : tabCol triaTab37 30 8 = true := by decide +kernel
theorem triaTab37_c31 : tabCol triaTab37 31 7 = true := by decide +kernel
theorem triaTab37_c32 : tabCol triaTab37 32 6 = true := by decide +kernel
theorem triaTab37_c33 : tabCol triaTab37 33 5 = true := by decide +kernel
theorem triaTab37_c34 : tabCol triaTab37 34 4 = true := by decide +kernel
theorem triaTab37_c35 : tabCol triaTab37 35 3 = true := by decide +kernel
theorem triaTab37_c36 : tabCol triaTab37 36 2 = true := by decide +kernel
theorem triaTab37_c37 : tabCol triaTab37 37 1 = true := by decide +kernel
theorem triaTab37_ok : TabOk 37 triaTab37 := ⟨triaTab37_rows,
  allLt_succ (allLt_succ (allLt_succ (allLt_succ (allLt_succ (allLt_succ (allLt_succ (allLt_succ (allLt_succ (allLt_succ (allLt_succ (allLt_succ (allLt_succ (allLt_succ (allLt_succ (allLt_succ (allLt_succ (allLt_succ (allLt_succ (allLt_succ (allLt_succ (allLt_succ (allLt_succ (allLt_succ (allLt_succ (allLt_succ (allLt_succ (allLt_succ (allLt_succ (allLt_succ (allLt_succ (allLt_succ (allLt_succ (allLt_succ (allLt_succ (allLt_succ (allLt_succ (allLt_succ (allLt_zero) triaTab37_c0) triaTab37_c1) triaTab37_c2) triaTab37_c3) triaTab37_c4) triaTab37_c5) triaTab37_c6) triaTab37_c7) triaTab37_c8) triaTab37_c9) triaTab37_c10) triaTab37_c11) triaTab37_c12) triaTab37_c13) triaTab37_c14) triaTab37_c15) triaTab37_c16) triaTab37_c17) triaTab37_c18) triaTab37_c19) triaTab37_c20) triaTab37_c21) triaTab37_c22) triaTab37_c23) triaTab37_c24) triaTab37_c25) triaTab37_c26) triaTab37_c27) triaTab37_c28) triaTab37_c29) triaTab37_c30) triaTab37_c31) triaTab37_c32) triaTab37_c33) triaTab37_c34) triaTab37_c35) triaTab37_c36) triaTab37_c37⟩

end Verif
