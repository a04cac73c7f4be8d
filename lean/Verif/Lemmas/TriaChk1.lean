import Verif.Model.TriaTab1
import Verif.Lemmas.TriaChkBase

/-! Generated by tools/quad_tables.py: the moments of the tabulated rules. -/

namespace Verif

theorem triaTab1_rows : tabRows triaTab1 = true := by decide +kernel
theorem triaTab1_c0 : tabCol triaTab1 0 2 = true := by decide +kernel
theorem triaTab1_c1 : tabCol triaTab1 1 1 = true := by decide +kernel
theorem triaTab1_ok : TabOk 1 triaTab1 := ⟨triaTab1_rows,
  allLt_succ (allLt_succ (allLt_zero) triaTab1_c0) triaTab1_c1⟩

theorem triaTab2_rows : tabRows triaTab2 = true := by decide +kernel
theorem triaTab2_c0 : tabCol triaTab2 0 3 = true := by decide +kernel
theorem triaTab2_c1 : tabCol triaTab2 1 2 = true := by decide +kernel
theorem triaTab2_c2 : tabCol triaTab2 2 1 = true := by decide +kernel
theorem triaTab2_ok : TabOk 2 triaTab2 := ⟨triaTab2_rows,
  allLt_succ (allLt_succ (allLt_succ (allLt_zero) triaTab2_c0) triaTab2_c1) triaTab2_c2⟩

theorem triaTab4_rows : tabRows triaTab4 = true := by decide +kernel
theorem triaTab4_c0 : tabCol triaTab4 0 5 = true := by decide +kernel
theorem triaTab4_c1 : tabCol triaTab4 1 4 = true := by decide +kernel
theorem triaTab4_c2 : tabCol triaTab4 2 3 = true := by decide +kernel
theorem triaTab4_c3 : tabCol triaTab4 3 2 = true := by decide +kernel
theorem triaTab4_c4 : tabCol triaTab4 4 1 = true := by decide +kernel
theorem triaTab4_ok : TabOk 4 triaTab4 := ⟨triaTab4_rows,
  allLt_succ (allLt_succ (allLt_succ (allLt_succ (allLt_succ (allLt_zero) triaTab4_c0) triaTab4_c1) triaTab4_c2) triaTab4_c3) triaTab4_c4⟩

theorem triaTab5_rows : tabRows triaTab5 = true := by decide +kernel
theorem triaTab5_c0 : tabCol triaTab5 0 6 = true := by decide +kernel
theorem triaTab5_c1 : tabCol triaTab5 1 5 = true := by decide +kernel
theorem triaTab5_c2 : tabCol triaTab5 2 4 = true := by decide +kernel
theorem triaTab5_c3 : tabCol triaTab5 3 3 = true := by decide +kernel
theorem triaTab5_c4 : tabCol triaTab5 4 2 = true := by decide +kernel
theorem triaTab5_c5 : tabCol triaTab5 5 1 = true := by decide +kernel
theorem triaTab5_ok : TabOk 5 triaTab5 := ⟨triaTab5_rows,
  allLt_succ (allLt_succ (allLt_succ (allLt_succ (allLt_succ (allLt_succ (allLt_zero) triaTab5_c0) triaTab5_c1) triaTab5_c2) triaTab5_c3) triaTab5_c4) triaTab5_c5⟩

theorem triaTab6_rows : tabRows triaTab6 = true := by decide +kernel
theorem triaTab6_c0 : tabCol triaTab6 0 7 = true := by decide +kernel
theorem triaTab6_c1 : tabCol triaTab6 1 6 = true := by decide +kernel
theorem triaTab6_c2 : tabCol triaTab6 2 5 = true := by decide +kernel
theorem triaTab6_c3 : tabCol triaTab6 3 4 = true := by decide +kernel
theorem triaTab6_c4 : tabCol triaTab6 4 3 = true := by decide +kernel
theorem triaTab6_c5 : tabCol triaTab6 5 2 = true := by decide +kernel
theorem triaTab6_c6 : tabCol triaTab6 6 1 = true := by decide +kernel
theorem triaTab6_ok : TabOk 6 triaTab6 := ⟨triaTab6_rows,
  allLt_succ (allLt_succ (allLt_succ (allLt_succ (allLt_succ (allLt_succ (allLt_succ (allLt_zero) triaTab6_c0) triaTab6_c1) triaTab6_c2) triaTab6_c3) triaTab6_c4) triaTab6_c5) triaTab6_c6⟩

theorem triaTab7_rows : tabRows triaTab7 = true := by decide +kernel
theorem triaTab7_c0 : tabCol triaTab7 0 8 = true := by decide +kernel
theorem triaTab7_c1 : tabCol triaTab7 1 7 = true := by decide +kernel
theorem triaTab7_c2 : tabCol triaTab7 2 6 = true := by decide +kernel
theorem triaTab7_c3 : tabCol triaTab7 3 5 = true := by decide +kernel
theorem triaTab7_c4 : tabCol triaTab7 4 4 = true := by decide +kernel
theorem triaTab7_c5 : tabCol triaTab7 5 3 = true := by decide +kernel
theorem triaTab7_c6 : tabCol triaTab7 6 2 = true := by decide +kernel
theorem triaTab7_c7 : tabCol triaTab7 7 1 = true := by decide +kernel
theorem triaTab7_ok : TabOk 7 triaTab7 := ⟨triaTab7_rows,
  allLt_succ (allLt_succ (allLt_succ (allLt_succ (allLt_succ (allLt_succ (allLt_succ (allLt_succ (allLt_zero) triaTab7_c0) triaTab7_c1) triaTab7_c2) triaTab7_c3) triaTab7_c4) triaTab7_c5) triaTab7_c6) triaTab7_c7⟩

theorem triaTab8_rows : tabRows triaTab8 = true := by decide +kernel
theorem triaTab8_c0 : tabCol triaTab8 0 9 = true := by decide +kernel
theorem triaTab8_c1 : tabCol triaTab8 1 8 = true := by decide +kernel
theorem triaTab8_c2 : tabCol triaTab8 2 7 = true := by decide +kernel
theorem triaTab8_c3 : tabCol triaTab8 3 6 = true := by decide +kernel
theorem triaTab8_c4 : tabCol triaTab8 4 5 = true := by decide +kernel
theorem triaTab8_c5 : tabCol triaTab8 5 4 = true := by decide +kernel
theorem triaTab8_c6 : tabCol triaTab8 6 3 = true := by decide +kernel
theorem triaTab8_c7 : tabCol triaTab8 7 2 = true := by decide +kernel
theorem triaTab8_c8 : tabCol triaTab8 8 1 = true := by decide +kernel
theorem triaTab8_ok : TabOk 8 triaTab8 := ⟨triaTab8_rows,
  allLt_succ (allLt_succ (allLt_succ (allLt_succ (allLt_succ (allLt_succ (allLt_succ (allLt_succ (allLt_succ (allLt_zero) triaTab8_c0) triaTab8_c1) triaTab8_c2) triaTab8_c3) triaTab8_c4) triaTab8_c5) triaTab8_c6) triaTab8_c7) triaTab8_c8⟩

theorem triaTab9_rows : tabRows triaTab9 = true := by decide +kernel
theorem triaTab9_c0 : tabCol triaTab9 0 10 = true := by decide +kernel
theorem triaTab9_c1 : tabCol triaTab9 1 9 = true := by decide +kernel
theorem triaTab9_c2 : tabCol triaTab9 2 8 = true := by decide +kernel
theorem triaTab9_c3 : tabCol triaTab9 3 7 = true := by decide +kernel
theorem triaTab9_c4 : tabCol triaTab9 4 6 = true := by decide +kernel
theorem triaTab9_c5 : tabCol triaTab9 5 5 = true := by decide +kernel
theorem triaTab9_c6 : tabCol triaTab9 6 4 = true := by decide +kernel
theorem triaTab9_c7 : tabCol triaTab9 7 3 = true := by decide +kernel
theorem triaTab9_c8 : tabCol triaTab9 8 2 = true := by decide +kernel
theorem triaTab9_c9 : tabCol triaTab9 9 1 = true := by decide +kernel
theorem triaTab9_ok : TabOk 9 triaTab9 := ⟨triaTab9_rows,
  allLt_succ (allLt_succ (allLt_succ (allLt_succ (allLt_succ (allLt_succ (allLt_succ (allLt_succ (allLt_succ (allLt_succ (allLt_zero) triaTab9_c0) triaTab9_c1) triaTab9_c2) triaTab9_c3) triaTab9_c4) triaTab9_c5) triaTab9_c6) triaTab9_c7) triaTab9_c8) triaTab9_c9⟩

theorem triaTab10_rows : tabRows triaTab10 = true := by decide +kernel
theorem triaTab10_c0 : tabCol triaTab10 0 11 = true := by decide +kernel
theorem triaTab10_c1 : tabCol triaTab10 1 10 = true := by decide +kernel
theorem triaTab10_c2 : tabCol triaTab10 2 9 = true := by decide +kernel
theorem triaTab10_c3 : tabCol triaTab10 3 8 = true := by decide +kernel
theorem triaTab10_c4 : tabCol triaTab10 4 7 = true := by decide +kernel
theorem triaTab10_c5 : tabCol triaTab10 5 6 = true := by decide +kernel
theorem triaTab10_c6 : tabCol triaTab10 6 5 = true := by decide +kernel
theorem triaTab10_c7 : tabCol triaTab10 7 4 = true := by decide +kernel
theorem triaTab10_c8 : tabCol triaTab10 8 3 = true := by decide +kernel
theorem triaTab10_c9 : tabCol triaTab10 9 2 = true := by decide +kernel
theorem triaTab10_c10 : tabCol triaTab10 10 1 = true := by decide +kernel
theorem triaTab10_ok : TabOk 10 triaTab10 := ⟨triaTab10_rows,
  allLt_succ (allLt_succ (allLt_succ (allLt_succ (allLt_succ (allLt_succ (allLt_succ (allLt_succ (allLt_succ (allLt_succ (allLt_succ (allLt_zero) triaTab10_c0) triaTab10_c1) triaTab10_c2) triaTab10_c3) triaTab10_c4) triaTab10_c5) triaTab10_c6) triaTab10_c7) triaTab10_c8) triaTab10_c9) triaTab10_c10⟩

theorem triaTab11_rows : tabRows triaTab11 = true := by decide +kernel
theorem triaTab11_c0 : tabCol triaTab11 0 12 = true := by decide +kernel
theorem triaTab11_c1 : tabCol triaTab11 1 11 = true := by decide +kernel
theorem triaTab11_c2 : tabCol triaTab11 2 10 = true := by decide +kernel
theorem triaTab11_c3 : tabCol triaTab11 3 9 = true := by decide +kernel
theorem triaTab11_c4 : tabCol triaTab11 4 8 = true := by decide +kernel
theorem triaTab11_c5 : tabCol triaTab11 5 7 = true := by decide +kernel
theorem triaTab11_c6 : tabCol triaTab11 6 6 = true := by decide +kernel
theorem triaTab11_c7 : tabCol triaTab11 7 5 = true := by decide +kernel
theorem triaTab11_c8 : tabCol triaTab11 8 4 = true := by decide +kernel
theorem triaTab11_c9 : tabCol triaTab11 9 3 = true := by decide +kernel
theorem triaTab11_c10 : tabCol triaTab11 10 2 = true := by decide +kernel
theorem triaTab11_c11 : tabCol triaTab11 11 1 = true := by decide +kernel
theorem triaTab11_ok : TabOk 11 triaTab11 := ⟨triaTab11_rows,
  allLt_succ (allLt_succ (allLt_succ (allLt_succ (allLt_succ (allLt_succ (allLt_succ (allLt_succ (allLt_succ (allLt_succ (allLt_succ (allLt_succ (allLt_zero) triaTab11_c0) triaTab11_c1) triaTab11_c2) triaTab11_c3) triaTab11_c4) triaTab11_c5) triaTab11_c6) triaTab11_c7) triaTab11_c8) triaTab11_c9) triaTab11_c10) triaTab11_c11⟩

theorem triaTab12_rows : tabRows triaTab12 = true := by decide +kernel
theorem triaTab12_c0 : tabCol triaTab12 0 13 = true := by decide +kernel
theorem triaTab12_c1 : tabCol triaTab12 1 12 = true := by decide +kernel
theorem triaTab12_c2 : tabCol triaTab12 2 11 = true := by decide +kernel
theorem triaTab12_c3 : tabCol triaTab12 3 10 = true := by decide +kernel
theorem triaTab12_c4 : tabCol triaTab12 4 9 = true := by decide +kernel
theorem triaTab12_c5 : tabCol triaTab12 5 8 = true := by decide +kernel
theorem triaTab12_c6 : tabCol triaTab12 6 7 = true := by decide +kernel
theorem triaTab12_c7 : tabCol triaTab12 7 6 = true := by decide +kernel
theorem triaTab12_c8 : tabCol triaTab12 8 5 = true := by decide +kernel
theorem triaTab12_c9 : tabCol triaTab12 9 4 = true := by decide +kernel
theorem triaTab12_c10 : tabCol triaTab12 10 3 = true := by decide +kernel
theorem triaTab12_c11 : tabCol triaTab12 11 2 = true := by decide +kernel
theorem triaTab12_c12 : tabCol triaTab12 12 1 = true := by decide +kernel
theorem triaTab12_ok : TabOk 12 triaTab12 := ⟨triaTab12_rows,
  allLt_succ (allLt_succ (allLt_succ (allLt_succ (allLt_succ (allLt_succ (allLt_succ (allLt_succ (allLt_succ (allLt_succ (allLt_succ (allLt_succ (allLt_succ (allLt_zero) triaTab12_c0) triaTab12_c1) triaTab12_c2) triaTab12_c3) triaTab12_c4) triaTab12_c5) triaTab12_c6) triaTab12_c7) triaTab12_c8) triaTab12_c9) triaTab12_c10) triaTab12_c11) triaTab12_c12⟩

theorem triaTab13_rows : tabRows triaTab13 = true := by decide +kernel
theorem triaTab13_c0 : tabCol triaTab13 0 14 = true := by decide +kernel
theorem triaTab13_c1 : tabCol triaTab13 1 13 = true := by decide +kernel
theorem triaTab13_c2 : tabCol triaTab13 2 12 = true := by decide +kernel
theorem triaTab13_c3 : tabCol triaTab13 3 11 = true := by decide +kernel
theorem triaTab13_c4 : tabCol triaTab13 4 10 = true := by decide +kernel
theorem triaTab13_c5 : tabCol triaTab13 5 9 = true := by decide +kernel
theorem triaTab13_c6 : tabCol triaTab13 6 8 = true := by decide +kernel
theorem triaTab13_c7 : tabCol triaTab13 7 7 = true := by decide +kernel
theorem triaTab13_c8 : tabCol triaTab13 8 6 = true := by decide +kernel
theorem triaTab13_c9 : tabCol triaTab13 9 5 = true := by decide +kernel
theorem triaTab13_c10 : tabCol triaTab13 10 4 = true := by decide +kernel
theorem triaTab13_c11 : tabCol triaTab13 11 3 = true := by decide +kernel
theorem triaTab13_c12 : tabCol triaTab13 12 2 = true := by decide +kernel
theorem triaTab13_c13 : tabCol triaTab13 13 1 = true := by decide +kernel
theorem triaTab13_ok : TabOk 13 triaTab13 := ⟨triaTab13_rows,
  allLt_succ (allLt_succ (allLt_succ (allLt_succ (allLt_succ (allLt_succ (allLt_succ (allLt_succ (allLt_succ (allLt_succ (allLt_succ (allLt_succ (allLt_succ (allLt_succ (allLt_zero) triaTab13_c0) triaTab13_c1) triaTab13_c2) triaTab13_c3) triaTab13_c4) triaTab13_c5) triaTab13_c6) triaTab13_c7) triaTab13_c8) triaTab13_c9) triaTab13_c10) triaTab13_c11) triaTab13_c12) triaTab13_c13⟩

theorem triaTab14_rows : tabRows triaTab14 = true := by decide +kernel
theorem triaTab14_c0 : tabCol triaTab14 0 15 = true := by decide +kernel
theorem triaTab14_c1 : tabCol triaTab14 1 14 = true := by decide +kernel
theorem triaTab14_c2 : tabCol triaTab14 2 13 = true := by decide +kernel
theorem triaTab14_c3 : tabCol triaTab14 3 12 = true := by decide +kernel
theorem triaTab14_c4 : tabCol triaTab14 4 11 = true := by decide +kernel
theorem triaTab14_c5 : tabCol triaTab14 5 10 = true := by decide +kernel
theorem triaTab14_c6 : tabCol triaTab14 6 9 = true := by decide +kernel
theorem triaTab14_c7 : tabCol triaTab14 7 8 = true := by decide +kernel
theorem triaTab14_c8 : tabCol triaTab14 8 7 = true := by decide +kernel
theorem triaTab14_c9 : tabCol triaTab14 9 6 = true := by decide +kernel
theorem triaTab14_c10 : tabCol triaTab14 10 5 = true := by decide +kernel
theorem triaTab14_c11 : tabCol triaTab14 11 4 = true := by decide +kernel
theorem triaTab14_c12 : tabCol triaTab14 12 3 = true := by decide +kernel
theorem triaTab14_c13 : tabCol triaTab14 13 2 = true := by decide +kernel
theorem triaTab14_c14 : tabCol triaTab14 14 1 = true := by decide +kernel
theorem triaTab14_ok : TabOk 14 triaTab14 := ⟨triaTab14_rows,
  allLt_succ (allLt_succ (allLt_succ (allLt_succ (allLt_succ (allLt_succ (allLt_succ (allLt_succ (allLt_succ (allLt_succ (allLt_succ (allLt_succ (allLt_succ (allLt_succ (allLt_succ (allLt_zero) triaTab14_c0) triaTab14_c1) triaTab14_c2) triaTab14_c3) triaTab14_c4) triaTab14_c5) triaTab14_c6) triaTab14_c7) triaTab14_c8) triaTab14_c9) triaTab14_c10) triaTab14_c11) triaTab14_c12) triaTab14_c13) triaTab14_c14⟩

theorem triaTab15_rows : tabRows triaTab15 = true := by decide +kernel
theorem triaTab15_c0 : tabCol triaTab15 0 16 = true := by decide +kernel
theorem triaTab15_c1 : tabCol triaTab15 1 15 = true := by decide +kernel
theorem triaTab15_c2 : tabCol triaTab15 2 14 = true := by decide +kernel
theorem triaTab15_c3 : tabCol triaTab15 3 13 = true := by decide +kernel
theorem triaTab15_c4 : tabCol triaTab15 4 12 = true := by decide +kernel
theorem triaTab15_c5 : tabCol triaTab15 5 11 = true := by decide +kernel
theorem triaTab15_c6 : tabCol triaTab15 6 10 = true := by decide +kernel
theorem triaTab15_c7 : tabCol triaTab15 7 9 = true := by decide +kernel
theorem triaTab15_c8 : tabCol triaTab15 8 8 = true := by decide +kernel
theorem triaTab15_c9 : tabCol triaTab15 9 7 = true := by decide +kernel
theorem triaTab15_c10 : tabCol triaTab15 10 6 = true := by decide +kernel
theorem triaTab15_c11 : tabCol triaTab15 11 5 = true := by decide +kernel
theorem triaTab15_c12 : tabCol triaTab15 12 4 = true := by decide +kernel
theorem triaTab15_c13 : tabCol triaTab15 13 3 = true := by decide +kernel
theorem triaTab15_c14 : tabCol triaTab15 14 2 = true := by decide +kernel
theorem triaTab15_c15 : tabCol triaTab15 15 1 = true := by decide +kernel
theorem triaTab15_ok : TabOk 15 triaTab15 := ⟨triaTab15_rows,
  allLt_succ (allLt_succ (allLt_succ (allLt_succ (allLt_succ (allLt_succ (allLt_succ (allLt_succ (allLt_succ (allLt_succ (allLt_succ (allLt_succ (allLt_succ (allLt_succ (allLt_succ (allLt_succ (allLt_zero) triaTab15_c0) triaTab15_c1) triaTab15_c2) triaTab15_c3) triaTab15_c4) triaTab15_c5) triaTab15_c6) triaTab15_c7) triaTab15_c8) triaTab15_c9) triaTab15_c10) triaTab15_c11) triaTab15_c12) triaTab15_c13) triaTab15_c14) triaTab15_c15⟩

theorem triaTab16_rows : tabRows triaTab16 = true := by decide +kernel
theorem triaTab16_c0 : tabCol triaTab16 0 17 = true := by decide +kernel
theorem triaTab16_c1 : tabCol triaTab16 1 16 = true := by decide +kernel
theorem triaTab16_c2 : tabCol triaTab16 2 15 = true := by decide +kernel
theorem triaTab16_c3 : tabCol triaTab16 3 14 = true := by decide +kernel
theorem triaTab16_c4 : tabCol triaTab16 4 13 = true := by decide +kernel
theorem triaTab16_c5 : tabCol triaTab16 5 12 = true := by decide +kernel
theorem triaTab16_c6 : tabCol triaTab16 6 11 = true := by decide +kernel
theorem triaTab16_c7 : tabCol triaTab16 7 10 = true := by decide +kernel
theorem triaTab16_c8 : tabCol triaTab16 8 9 = true := by decide +kernel
theorem triaTab16_c9 : tabCol triaTab16 9 8 = true := by decide +kernel
theorem triaTab16_c10 : tabCol triaTab16 10 7 = true := by decide +kernel
theorem triaTab16_c11 : tabCol triaTab16 11 6 = true := by decide +kernel
theorem triaTab16_c12 : tabCol triaTab16 12 5 = true := by decide +kernel
theorem triaTab16_c13 : tabCol triaTab16 13 4 = true := by decide +kernel
theorem triaTab16_c14 : tabCol triaTab16 14 3 = true := by decide +kernel
theorem triaTab16_c15 : tabCol triaTab16 15 2 = true := by decide +kernel
theorem triaTab16_c16 : tabCol triaTab16 16 1 = true := by decide +kernel
theorem triaTab16_ok : TabOk 16 triaTab16 := ⟨triaTab16_rows,
  allLt_succ (allLt_succ (allLt_succ (allLt_succ (allLt_succ (allLt_succ (allLt_succ (allLt_succ (allLt_succ (allLt_succ (allLt_succ (allLt_succ (allLt_succ (allLt_succ (allLt_succ (allLt_succ (allLt_succ (allLt_zero) triaTab16_c0) triaTab16_c1) triaTab16_c2) triaTab16_c3) triaTab16_c4) triaTab16_c5) triaTab16_c6) triaTab16_c7) triaTab16_c8) triaTab16_c9) triaTab16_c10) triaTab16_c11) triaTab16_c12) triaTab16_c13) triaTab16_c14) triaTab16_c15) triaTab16_c16⟩

theorem triaTab17_rows : tabRows triaTab17 = true := by decide +kernel
theorem triaTab17_c0 : tabCol triaTab17 0 18 = true := by decide +kernel
theorem triaTab17_c1 : tabCol triaTab17 1 17 = true := by decide +kernel
theorem triaTab17_c2 : tabCol triaTab17 2 16 = true := by decide +kernel
theorem triaTab17_c3 : tabCol triaTab17 3 15 = true := by decide +kernel
theorem triaTab17_c4 : tabCol triaTab17 4 14 = true := by decide +kernel
theorem triaTab17_c5 : tabCol triaTab17 5 13 = true := by decide +kernel
theorem triaTab17_c6 : tabCol triaTab17 6 12 = true := by decide +kernel
theorem triaTab17_c7 : tabCol triaTab17 7 11 = true := by decide +kernel
theorem triaTab17_c8 : tabCol triaTab17 8 10 = true := by decide +kernel
theorem triaTab17_c9 : tabCol triaTab17 9 9 = true := by decide +kernel
theorem triaTab17_c10 : tabCol triaTab17 10 8 = true := by decide +kernel
theorem triaTab17_c11 : tabCol triaTab17 11 7 = true := by decide +kernel
theorem triaTab17_c12 : tabCol triaTab17 12 6 = true := by decide +kernel
theorem triaTab17_c13 : tabCol triaTab17 13 5 = true := by decide +kernel
theorem triaTab17_c14 : tabCol triaTab17 14 4 = true := by decide +kernel
theorem triaTab17_c15 : tabCol triaTab17 15 3 = true := by decide +kernel
theorem triaTab17_c16 : tabCol triaTab17 16 2 = true := by decide +kernel
theorem triaTab17_c17 : tabCol triaTab17 17 1 = true := by decide +kernel
theorem triaTab17_ok : TabOk 17 triaTab17 := ⟨triaTab17_rows,
  allLt_succ (allLt_succ (allLt_succ (allLt_succ (allLt_succ (allLt_succ (allLt_succ (allLt_succ (allLt_succ (allLt_succ (allLt_succ (allLt_succ (allLt_succ (allLt_succ (allLt_succ (allLt_succ (allLt_succ (allLt_succ (allLt_zero) triaTab17_c0) triaTab17_c1) triaTab17_c2) triaTab17_c3) triaTab17_c4) triaTab17_c5) triaTab17_c6) triaTab17_c7) triaTab17_c8) triaTab17_c9) triaTab17_c10) triaTab17_c11) triaTab17_c12) triaTab17_c13) triaTab17_c14) triaTab17_c15) triaTab17_c16) triaTab17_c17⟩

theorem triaTab18_rows : tabRows triaTab18 = true := by decide +kernel
theorem triaTab18_c0 : tabCol triaTab18 0 19 = true := by decide +kernel
theorem triaTab18_c1 : tabCol triaTab18 1 18 = true := by decide +kernel
theorem triaTab18_c2 : tabCol triaTab18 2 17 = true := by decide +kernel
theorem triaTab18_c3 : tabCol triaTab18 3 16 = true := by decide +kernel
theorem triaTab18_c4 : tabCol triaTab18 4 15 = true := by decide +kernel
theorem triaTab18_c5 : tabCol triaTab18 5 14 = true := by decide +kernel
theorem triaTab18_c6 : tabCol triaTab18 6 13 = true := by decide +kernel
theorem triaTab18_c7 : tabCol triaTab18 7 12 = true := by decide +kernel
theorem triaTab18_c8 : tabCol triaTab18 8 11 = true := by decide +kernel
theorem triaTab18_c9 : tabCol triaTab18 9 10 = true := by decide +kernel
theorem triaTab18_c10 : tabCol triaTab18 10 9 = true := by decide +kernel
theorem triaTab18_c11 : tabCol triaTab18 11 8 = true := by decide +kernel
theorem triaTab18_c12 : tabCol triaTab18 12 7 = true := by decide +kernel
theorem triaTab18_c13 : tabCol triaTab18 13 6 = true := by decide +kernel
theorem triaTab18_c14 : tabCol triaTab18 14 5 = true := by decide +kernel
theorem triaTab18_c15 : tabCol triaTab18 15 4 = true := by decide +kernel
theorem triaTab18_c16 : tabCol triaTab18 16 3 = true := by decide +kernel
theorem triaTab18_c17 : tabCol triaTab18 17 2 = true := by decide +kernel
theorem triaTab18_c18 : tabCol triaTab18 18 1 = true := by decide +kernel
theorem triaTab18_ok : TabOk 18 triaTab18 := ⟨triaTab18_rows,
  allLt_succ (allLt_succ (allLt_succ (allLt_succ (allLt_succ (allLt_succ (allLt_succ (allLt_succ (allLt_succ (allLt_succ (allLt_succ (allLt_succ (allLt_succ (allLt_succ (allLt_succ (allLt_succ (allLt_succ (allLt_succ (allLt_succ (allLt_zero) triaTab18_c0) triaTab18_c1) triaTab18_c2) triaTab18_c3) triaTab18_c4) triaTab18_c5) triaTab18_c6) triaTab18_c7) triaTab18_c8) triaTab18_c9) triaTab18_c10) triaTab18_c11) triaTab18_c12) triaTab18_c13) triaTab18_c14) triaTab18_c15) triaTab18_c16) triaTab18_c17) triaTab18_c18⟩

theorem triaTab19_rows : tabRows triaTab19 = true := by decide +kernel
theorem triaTab19_c0 : tabCol triaTab19 0 20 = true := by decide +kernel
theorem triaTab19_c1 : tabCol triaTab19 1 19 = true := by decide +kernel
theorem triaTab19_c2 : tabCol triaTab19 2 18 = true := by decide +kernel
theorem triaTab19_c3 : tabCol triaTab19 3 17 = true := by decide +kernel
theorem triaTab19_c4 : tabCol triaTab19 4 16 = true := by decide +kernel
theorem triaTab19_c5 : tabCol triaTab19 5 15 = true := by decide +kernel
theorem triaTab19_c6 : tabCol triaTab19 6 14 = true := by decide +kernel
theorem triaTab19_c7 : tabCol triaTab19 7 13 = true := by decide +kernel
theorem triaTab19_c8 : tabCol triaTab19 8 12 = true := by decide +kernel
theorem triaTab19_c9 : tabCol triaTab19 9 11 = true := by decide +kernel
theorem triaTab19_c10 : tabCol triaTab19 10 10 = true := by decide +kernel
theorem triaTab19_c11 : tabCol triaTab19 11 9 = true := by decide +kernel
theorem triaTab19_c12 : tabCol triaTab19 12 8 = true := by decide +kernel
theorem triaTab19_c13 : tabCol triaTab19 13 7 = true := by decide +kernel
theorem triaTab19_c14 : tabCol triaTab19 14 6 = true := by decide +kernel
theorem triaTab19_c15 : tabCol triaTab19 15 5 = true := by decide +kernel
theorem triaTab19_c16 : tabCol triaTab19 16 4 = true := by decide +kernel
theorem triaTab19_c17 : tabCol triaTab19 17 3 = true := by decide +kernel
theorem triaTab19_c18 : tabCol triaTab19 18 2 = true := by decide +kernel
theorem triaTab19_c19 : tabCol triaTab19 19 1 = true := by decide +kernel
theorem triaTab19_ok : TabOk 19 triaTab19 := ⟨triaTab19_rows,
  allLt_succ (allLt_succ (allLt_succ (allLt_succ (allLt_succ (allLt_succ (allLt_succ (allLt_succ (allLt_succ (allLt_succ (allLt_succ (allLt_succ (allLt_succ (allLt_succ (allLt_succ (allLt_succ (allLt_succ (allLt_succ (allLt_succ (allLt_succ (allLt_zero) triaTab19_c0) triaTab19_c1) triaTab19_c2) triaTab19_c3) triaTab19_c4) triaTab19_c5) triaTab19_c6) triaTab19_c7) triaTab19_c8) triaTab19_c9) triaTab19_c10) triaTab19_c11) triaTab19_c12) triaTab19_c13) triaTab19_c14) triaTab19_c15) triaTab19_c16) triaTab19_c17) triaTab19_c18) triaTab19_c19⟩

theorem triaTab20_rows : tabRows triaTab20 = true := by decide +kernel
theorem triaTab20_c0 : tabCol triaTab20 0 21 = true := by decide +kernel
theorem triaTab20_c1 : tabCol triaTab20 1 20 = true := by decide +kernel
theorem triaTab20_c2 : tabCol triaTab20 2 19 = true := by decide +kernel
theorem triaTab20_c3 : tabCol triaTab20 3 18 = true := by decide +kernel
theorem triaTab20_c4 : tabCol triaTab20 4 17 = true := by decide +kernel
theorem triaTab20_c5 : tabCol triaTab20 5 16 = true := by decide +kernel
theorem triaTab20_c6 : tabCol triaTab20 6 15 = true := by decide +kernel
theorem triaTab20_c7 : tabCol triaTab20 7 14 = true := by decide +kernel
theorem triaTab20_c8 : tabCol triaTab20 8 13 = true := by decide +kernel
theorem triaTab20_c9 : tabCol triaTab20 9 12 = true := by decide +kernel
theorem triaTab20_c10 : tabCol triaTab20 10 11 = true := by decide +kernel
theorem triaTab20_c11 : tabCol triaTab20 11 10 = true := by decide +kernel
theorem triaTab20_c12 : tabCol triaTab20 12 9 = true := by decide +kernel
theorem triaTab20_c13 : tabCol triaTab20 13 8 = true := by decide +kernel
theorem triaTab20_c14 : tabCol triaTab20 14 7 = true := by decide +kernel
theorem triaTab20_c15 : tabCol triaTab20 15 6 = true := by decide +kernel
theorem triaTab20_c16 : tabCol triaTab20 16 5 = true := by decide +kernel
theorem triaTab20_c17 : tabCol triaTab20 17 4 = true := by decide +kernel
theorem triaTab20_c18 : tabCol triaTab20 18 3 = true := by decide +kernel
theorem triaTab20_c19 : tabCol triaTab20 19 2 = true := by decide +kernel
theorem triaTab20_c20 : tabCol triaTab20 20 1 = true := by decide +kernel
theorem triaTab20_ok : TabOk 20 triaTab20 := ⟨triaTab20_rows,
  allLt_succ (allLt_succ (allLt_succ (allLt_succ (allLt_succ (allLt_succ (allLt_succ (allLt_succ (allLt_succ (allLt_succ (allLt_succ (allLt_succ (allLt_succ (allLt_succ (allLt_succ (allLt_succ (allLt_succ (allLt_succ (allLt_succ (allLt_succ (allLt_succ (allLt_zero) triaTab20_c0) triaTab20_c1) triaTab20_c2) triaTab20_c3) triaTab20_c4) triaTab20_c5) triaTab20_c6) triaTab20_c7) triaTab20_c8) triaTab20_c9) triaTab20_c10) triaTab20_c11) triaTab20_c12) triaTab20_c13) triaTab20_c14) triaTab20_c15) triaTab20_c16) triaTab20_c17) triaTab20_c18) triaTab20_c19) triaTab20_c20⟩

theorem triaTab21_rows : tabRows triaTab21 = true := by decide +kernel
theorem triaTab21_c0 : tabCol triaTab21 0 22 = true := by decide +kernel
theorem triaTab21_c1 : tabCol triaTab21 1 21 = true := by decide +kernel
theorem triaTab21_c2 : tabCol triaTab21 2 20 = true := by decide +kernel
theorem triaTab21_c3 : tabCol triaTab21 3 19 = true := by decide +kernel
theorem triaTab21_c4 : tabCol triaTab21 4 18 = true := by decide +kernel
theorem triaTab21_c5 : tabCol triaTab21 5 17 = true := by decide +kernel
theorem triaTab21_c6 : tabCol triaTab21 6 16 = true := by decide +kernel
theorem triaTab21_c7 : tabCol triaTab21 7 15 = true := by decide +kernel
theorem triaTab21_c8 : tabCol triaTab21 8 14 = true := by decide +kernel
theorem triaTab21_c9 : tabCol triaTab21 9 13 = true := by decide +kernel
theorem triaTab21_c10 : tabCol triaTab21 10 12 = true := by decide +kernel
theorem triaTab21_c11 : tabCol triaTab21 11 11 = true := by decide +kernel
theorem triaTab21_c12 : tabCol triaTab21 12 10 = true := by decide +kernel
theorem triaTab21_c13 : tabCol triaTab21 13 9 = true := by decide +kernel
theorem triaTab21_c14 : tabCol triaTab21 14 8 = true := by decide +kernel
theorem triaTab21_c15 : tabCol triaTab21 15 7 = true := by decide +kernel
theorem triaTab21_c16 : tabCol triaTab21 16 6 = true := by decide +kernel
theorem triaTab21_c17 : tabCol triaTab21 17 5 = true := by decide +kernel
theorem triaTab21_c18 : tabCol triaTab21 18 4 = true := by decide +kernel
theorem triaTab21_c19 : tabCol triaTab21 19 3 = true := by decide +kernel
theorem triaTab21_c20 : tabCol triaTab21 20 2 = true := by decide +kernel
theorem triaTab21_c21 : tabCol triaTab21 21 1 = true := by decide +kernel
theorem triaTab21_ok : TabOk 21 triaTab21 := ⟨triaTab21_rows,
  allLt_succ (allLt_succ (allLt_succ (allLt_succ (allLt_succ (allLt_succ (allLt_succ (allLt_succ (allLt_succ (allLt_succ (allLt_succ (allLt_succ (allLt_succ (allLt_succ (allLt_succ (allLt_succ (allLt_succ (allLt_succ (allLt_succ (allLt_succ (allLt_succ (allLt_succ (allLt_zero) triaTab21_c0) triaTab21_c1) triaTab21_c2) triaTab21_c3) triaTab21_c4) triaTab21_c5) triaTab21_c6) triaTab21_c7) triaTab21_c8) triaTab21_c9) triaTab21_c10) triaTab21_c11) triaTab21_c12) triaTab21_c13) triaTab21_c14) triaTab21_c15) triaTab21_c16) triaTab21_c17) triaTab21_c18) triaTab21_c19) triaTab21_c20) triaTab21_c21⟩

theorem triaTab22_rows : tabRows triaTab22 = true := by decide +kernel
theorem triaTab22_c0 : tabCol triaTab22 0 23 = true := by decide +kernel
theorem triaTab22_c1 : tabCol triaTab22 1 22 = true := by decide +kernel
theorem triaTab22_c2 : tabCol triaTab22 2 21 = true := by decide +kernel
theorem triaTab22_c3 : tabCol triaTab22 3 20 = true := by decide +kernel
theorem triaTab22_c4 : tabCol triaTab22 4 19 = true := by decide +kernel
theorem triaTab22_c5 : tabCol triaTab22 5 18 = true := by decide +kernel
theorem triaTab22_c6 : tabCol triaTab22 6 17 = true := by decide +kernel
theorem triaTab22_c7 : tabCol triaTab22 7 16 = true := by decide +kernel
theorem triaTab22_c8 : tabCol triaTab22 8 15 = true := by decide +kernel
theorem triaTab22_c9 : tabCol triaTab22 9 14 = true := by decide +kernel
theorem triaTab22_c10 : tabCol triaTab22 10 13 = true := by decide +kernel
theorem triaTab22_c11 : tabCol triaTab22 11 12 = true := by decide +kernel
theorem triaTab22_c12 : tabCol triaTab22 12 11 = true := by decide +kernel
theorem triaTab22_c13 : tabCol triaTab22 13 10 = true := by decide +kernel
theorem triaTab22_c14 : tabCol triaTab22 14 9 = true := by decide +kernel
theorem triaTab22_c15 : tabCol triaTab22 15 8 = true := by decide +kernel
theorem triaTab22_c16 : tabCol triaTab22 16 7 = true := by decide +kernel
theorem triaTab22_c17 : tabCol triaTab22 17 6 = true := by decide +kernel
theorem triaTab22_c18 : tabCol triaTab22 18 5 = true := by decide +kernel
theorem triaTab22_c19 : tabCol triaTab22 19 4 = true := by decide +kernel
theorem triaTab22_c20 : tabCol triaTab22 20 3 = true := by decide +kernel
theorem triaTab22_c21 : tabCol triaTab22 21 2 = true := by decide +kernel
theorem triaTab22_c22 : tabCol triaTab22 22 1 = true := by decide +kernel
theorem triaTab22_ok : TabOk 22 triaTab22 := ⟨triaTab22_rows,
  allLt_succ (allLt_succ (allLt_succ (allLt_succ (allLt_succ (allLt_succ (allLt_succ (allLt_succ (allLt_succ (allLt_succ (allLt_succ (allLt_succ (allLt_succ (allLt_succ (allLt_succ (allLt_succ (allLt_succ (allLt_succ (allLt_succ (allLt_succ (allLt_succ (allLt_succ (allLt_succ (allLt_zero) triaTab22_c0) triaTab22_c1) triaTab22_c2) triaTab22_c3) triaTab22_c4) triaTab22_c5) triaTab22_c6) triaTab22_c7) triaTab22_c8) triaTab22_c9) triaTab22_c10) triaTab22_c11) triaTab22_c12) triaTab22_c13) triaTab22_c14) triaTab22_c15) triaTab22_c16) triaTab22_c17) triaTab22_c18) triaTab22_c19) triaTab22_c20) triaTab22_c21) triaTab22_c22⟩

theorem triaTab23_rows : tabRows triaTab23 = true := by decide +kernel
theorem triaTab23_c0 : tabCol triaTab23 0 24 = true := by decide +kernel
theorem triaTab23_c1 : tabCol triaTab23 1 23 = true := by decide +kernel
theorem triaTab23_c2 : tabCol triaTab23 2 22 = true := by decide +kernel
theorem triaTab23_c3 : tabCol triaTab23 3 21 = true := by decide +kernel
theorem triaTab23_c4 : tabCol triaTab23 4 20 = true := by decide +kernel
theorem triaTab23_c5 : tabCol triaTab23 5 19 = true := by decide +kernel
theorem triaTab23_c6 : tabCol triaTab23 6 18 = true := by decide +kernel
theorem triaTab23_c7 : tabCol triaTab23 7 17 = true := by decide +kernel
theorem triaTab23_c8 : tabCol triaTab23 8 16 = true := by decide +kernel
theorem triaTab23_c9 : tabCol triaTab23 9 15 = true := by decide +kernel
theorem triaTab23_c10 : tabCol triaTab23 10 14 = true := by decide +kernel
theorem triaTab23_c11 : tabCol triaTab23 11 13 = true := by decide +kernel
theorem triaTab23_c12 : tabCol triaTab23 12 12 = true := by decide +kernel
theorem triaTab23_c13 : tabCol triaTab23 13 11 = true := by decide +kernel
theorem triaTab23_c14 : tabCol triaTab23 14 10 = true := by decide +kernel
theorem triaTab23_c15 : tabCol triaTab23 15 9 = true := by decide +kernel
theorem triaTab23_c16 : tabCol triaTab23 16 8 = true := by decide +kernel
theorem triaTab23_c17 : tabCol triaTab23 17 7 = true := by decide +kernel
theorem triaTab23_c18 : tabCol triaTab23 18 6 = true := by decide +kernel
theorem triaTab23_c19 : tabCol triaTab23 19 5 = true := by decide +kernel
theorem triaTab23_c20 : tabCol triaTab23 20 4 = true := by decide +kernel
theorem triaTab23_c21 : tabCol triaTab23 21 3 = true := by decide +kernel
theorem triaTab23_c22 : tabCol triaTab23 22 2 = true := by decide +kernel
theorem triaTab23_c23 : tabCol triaTab23 23 1 = true := by decide +kernel
theorem triaTab23_ok : TabOk 23 triaTab23 := ⟨triaTab23_rows,
  allLt_succ (allLt_succ (allLt_succ (allLt_succ (allLt_succ (allLt_succ (allLt_succ (allLt_succ (allLt_succ (allLt_succ (allLt_succ (allLt_succ (allLt_succ (allLt_succ (allLt_succ (allLt_succ (allLt_succ (allLt_succ (allLt_succ (allLt_succ (allLt_succ (allLt_succ (allLt_succ (allLt_succ (allLt_zero) triaTab23_c0) triaTab23_c1) triaTab23_c2) triaTab23_c3) triaTab23_c4) triaTab23_c5) triaTab23_c6) triaTab23_c7) triaTab23_c8) triaTab23_c9) triaTab23_c10) triaTab23_c11) triaTab23_c12) triaTab23_c13) triaTab23_c14) triaTab23_c15) triaTab23_c16) triaTab23_c17) triaTab23_c18) triaTab23_c19) triaTab23_c20) triaTab23_c21) triaTab23_c22) triaTab23_c23⟩

theorem triaTab24_rows : tabRows triaTab24 = true := by decide +kernel
theorem triaTab24_c0 : tabCol triaTab24 0 25 = true := by decide +kernel
theorem triaTab24_c1 : tabCol triaTab24 1 24 = true := by decide +kernel
theorem triaTab24_c2 : tabCol triaTab24 2 23 = true := by decide +kernel
theorem triaTab24_c3 : tabCol triaTab24 3 22 = true := by decide +kernel
theorem triaTab24_c4 : tabCol triaTab24 4 21 = true := by decide +kernel
theorem triaTab24_c5 : tabCol triaTab24 5 20 = true := by decide +kernel
theorem triaTab24_c6 : tabCol triaTab24 6 19 = true := by decide +kernel
theorem triaTab24_c7 : tabCol triaTab24 7 18 = true := by decide +kernel
theorem triaTab24_c8 : tabCol triaTab24 8 17 = true := by decide +kernel
theorem triaTab24_c9 : tabCol triaTab24 9 16 = true := by decide +kernel
theorem triaTab24_c10 : tabCol triaTab24 10 15 = true := by decide +kernel
theorem triaTab24_c11 : tabCol triaTab24 11 14 = true := by decide +kernel
theorem triaTab24_c12 : tabCol triaTab24 12 13 = true := by decide +kernel
theorem triaTab24_c13 : tabCol triaTab24 13 12 = true := by decide +kernel
theorem triaTab24_c14 : tabCol triaTab24 14 11 = true := by decide +kernel
theorem triaTab24_c15 : tabCol triaTab24 15 10 = true := by decide +kernel
theorem triaTab24_c16 : tabCol triaTab24 16 9 = true := by decide +kernel
theorem triaTab24_c17 : tabCol triaTab24 17 8 = true := by decide +kernel
theorem triaTab24_c18 : tabCol triaTab24 18 7 = true := by decide +kernel
theorem triaTab24_c19 : tabCol triaTab24 19 6 = true := by decide +kernel
theorem triaTab24_c20 : tabCol triaTab24 20 5 = true := by decide +kernel
theorem triaTab24_c21 : tabCol triaTab24 21 4 = true := by decide +kernel
theorem triaTab24_c22 : tabCol triaTab24 22 3 = true := by decide +kernel
theorem triaTab24_c23 : tabCol triaTab24 23 2 = true := by decide +kernel
theorem triaTab24_c24 : tabCol triaTab24 24 1 = true := by decide +kernel
theorem triaTab24_ok : TabOk 24 triaTab24 := ⟨triaTab24_rows,
  allLt_succ (allLt_succ (allLt_succ (allLt_succ (allLt_succ (allLt_succ (allLt_succ (allLt_succ (allLt_succ (allLt_succ (allLt_succ (allLt_succ (allLt_succ (allLt_succ (allLt_succ (allLt_succ (allLt_succ (allLt_succ (allLt_succ (allLt_succ (allLt_succ (allLt_succ (allLt_succ (allLt_succ (allLt_succ (allLt_zero) triaTab24_c0) triaTab24_c1) triaTab24_c2) triaTab24_c3) triaTab24_c4) triaTab24_c5) triaTab24_c6) triaTab24_c7) triaTab24_c8) triaTab24_c9) triaTab24_c10) triaTab24_c11) triaTab24_c12) triaTab24_c13) triaTab24_c14) triaTab24_c15) triaTab24_c16) triaTab24_c17) triaTab24_c18) triaTab24_c19) triaTab24_c20) triaTab24_c21) triaTab24_c22) triaTab24_c23) triaTab24_c24⟩

theorem triaTab25_rows : tabRows triaTab25 = true := by decide +kernel
theorem triaTab25_c0 : tabCol triaTab25 0 26 = true := by decide +kernel
theorem triaTab25_c1 : tabCol triaTab25 1 25 = true := by decide +kernel
theorem triaTab25_c2 : tabCol triaTab25 2 24 = true := by decide +kernel
theorem triaTab25_c3 : tabCol triaTab25 3 23 = true := by decide +kernel
theorem triaTab25_c4 : tabCol triaTab25 4 22 = true := by decide +kernel
theorem triaTab25_c5 : tabCol triaTab25 5 21 = true := by decide +kernel
theorem triaTab25_c6 : tabCol triaTab25 6 20 = true := by decide +kernel
theorem triaTab25_c7 : tabCol triaTab25 7 19 = true := by decide +kernel
theorem triaTab25_c8 : tabCol triaTab25 8 18 = true := by decide +kernel
theorem triaTab25_c9 : tabCol triaTab25 9 17 = true := by decide +kernel
theorem triaTab25_c10 : tabCol triaTab25 10 16 = true := by decide +kernel
theorem triaTab25_c11 : tabCol triaTab25 11 15 = true := by decide +kernel
theorem triaTab25_c12 : tabCol triaTab25 12 14 = true := by decide +kernel
theorem triaTab25_c13 : tabCol triaTab25 13 13 = true := by decide +kernel
theorem triaTab25_c14 : tabCol triaTab25 14 12 = true := by decide +kernel
theorem triaTab25_c15 : tabCol triaTab25 15 11 = true := by decide +kernel
theorem triaTab25_c16 : tabCol triaTab25 16 10 = true := by decide +kernel
theorem triaTab25_c17 : tabCol triaTab25 17 9 = true := by decide +kernel
theorem triaTab25_c18 : tabCol triaTab25 18 8 = true := by decide +kernel
theorem triaTab25_c19 : tabCol triaTab25 19 7 = true := by decide +kernel
theorem triaTab25_c20 : tabCol triaTab25 20 6 = true := by decide +kernel
theorem triaTab25_c21 : tabCol triaTab25 21 5 = true := by decide +kernel
theorem triaTab25_c22 : tabCol triaTab25 22 4 = true := by decide +kernel
theorem triaTab25_c23 : tabCol triaTab25 23 3 = true := by decide +kernel
theorem triaTab25_c24 : tabCol triaTab25 24 2 = true := by decide +kernel
theorem triaTab25_c25 : tabCol triaTab25 25 1 = true := by decide +kernel
theorem triaTab25_ok : TabOk 25 triaTab25 := ⟨triaTab25_rows,
  allLt_succ (allLt_succ (allLt_succ (allLt_succ (allLt_succ (allLt_succ (allLt_succ (allLt_succ (allLt_succ (allLt_succ (allLt_succ (allLt_succ (allLt_succ (allLt_succ (allLt_succ (allLt_succ (allLt_succ (allLt_succ (allLt_succ (allLt_succ (allLt_succ (allLt_succ (allLt_succ (allLt_succ (allLt_succ (allLt_succ (allLt_zero) triaTab25_c0) triaTab25_c1) triaTab25_c2) triaTab25_c3) triaTab25_c4) triaTab25_c5) triaTab25_c6) triaTab25_c7) triaTab25_c8) triaTab25_c9) triaTab25_c10) triaTab25_c11) triaTab25_c12) triaTab25_c13) triaTab25_c14) triaTab25_c15) triaTab25_c16) triaTab25_c17) triaTab25_c18) triaTab25_c19) triaTab25_c20) triaTab25_c21) triaTab25_c22) triaTab25_c23) triaTab25_c24) triaTab25_c25⟩

theorem triaTab26_rows : tabRows triaTab26 = true := by decide +kernel
theorem triaTab26_c0 : tabCol triaTab26 0 27 = true := by decide +kernel
theorem triaTab26_c1 : tabCol triaTab26 1 26 = true := by decide +kernel
theorem triaTab26_c2 : tabCol triaTab26 2 25 = true := by decide +kernel
theorem triaTab26_c3 : tabCol triaTab26 3 24 = true := by decide +kernel
theorem triaTab26_c4 : tabCol triaTab26 4 23 = true := by decide +kernel
theorem triaTab26_c5 : tabCol triaTab26 5 22 = true := by decide +kernel
theorem triaTab26_c6 : tabCol triaTab26 6 21 = true := by decide +kernel
theorem triaTab26_c7 : tabCol triaTab26 7 20 = true := by decide +kernel
theorem triaTab26_c8 : tabCol triaTab26 8 19 = true := by decide +kernel
theorem triaTab26_c9 : tabCol triaTab26 9 18 = true := by decide +kernel
theorem triaTab26_c10 : tabCol triaTab26 10 17 = true := by decide +kernel
theorem triaTab26_c11 : tabCol triaTab26 11 16 = true := by decide +kernel
theorem triaTab26_c12 : tabCol triaTab26 12 15 = true := by decide +kernel
theorem triaTab26_c13 : tabCol triaTab26 13 14 = true := by decide +kernel
theorem triaTab26_c14 : tabCol triaTab26 14 13 = true := by decide +kernel
theorem triaTab26_c15 : tabCol triaTab26 15 12 = true := by decide +kernel
theorem triaTab26_c16 : tabCol triaTab26 16 11 = true := by decide +kernel
theorem triaTab26_c17 : tabCol triaTab26 17 10 = true := by decide +kernel
theorem triaTab26_c18 : tabCol triaTab26 18 9 = true := by decide +kernel
theorem triaTab26_c19 : tabCol triaTab26 19 8 = true := by decide +kernel
theorem triaTab26_c20 : tabCol triaTab26 20 7 = true := by decide +kernel
theorem triaTab26_c21 : tabCol triaTab26 21 6 = true := by decide +kernel
theorem triaTab26_c22 : tabCol triaTab26 22 5 = true := by decide +kernel
theorem triaTab26_c23 : tabCol triaTab26 23 4 = true := by decide +kernel
theorem triaTab26_c24 : tabCol triaTab26 24 3 = true := by decide +kernel
theorem triaTab26_c25 : tabCol triaTab26 25 2 = true := by decide +kernel
theorem triaTab26_c26 : tabCol triaTab26 26 1 = true := by decide +kernel
theorem triaTab26_ok : TabOk 26 triaTab26 := ⟨triaTab26_rows,
  allLt_succ (allLt_succ (allLt_succ (allLt_succ (allLt_succ (allLt_succ (allLt_succ (allLt_succ (allLt_succ (allLt_succ (allLt_succ (allLt_succ (allLt_succ (allLt_succ (allLt_succ (allLt_succ (allLt_succ (allLt_succ (allLt_succ (allLt_succ (allLt_succ (allLt_succ (allLt_succ (allLt_succ (allLt_succ (allLt_succ (allLt_succ (allLt_zero) triaTab26_c0) triaTab26_c1) triaTab26_c2) triaTab26_c3) triaTab26_c4) triaTab26_c5) triaTab26_c6) triaTab26_c7) triaTab26_c8) triaTab26_c9) triaTab26_c10) triaTab26_c11) triaTab26_c12) triaTab26_c13) triaTab26_c14) triaTab26_c15) triaTab26_c16) triaTab26_c17) triaTab26_c18) triaTab26_c19) triaTab26_c20) triaTab26_c21) triaTab26_c22) triaTab26_c23) triaTab26_c24) triaTab26_c25) triaTab26_c26⟩

theorem triaTab27_rows : tabRows triaTab27 = true := by decide +kernel
theorem triaTab27_c0 : tabCol triaTab27 0 28 = true := by decide +kernel
theorem triaTab27_c1 : tabCol triaTab27 1 27 = true := by decide +kernel
theorem triaTab27_c2 : tabCol triaTab27 2 26 = true := by decide +kernel
theorem triaTab27_c3 : tabCol triaTab27 3 25 = true := by decide +kernel
theorem triaTab27_c4 : tabCol triaTab27 4 24 = true := by decide +kernel
theorem triaTab27_c5 : tabCol triaTab27 5 23 = true := by decide +kernel
theorem triaTab27_c6 : tabCol triaTab27 6 22 = true := by decide +kernel
theorem triaTab27_c7 : tabCol triaTab27 7 21 = true := by decide +kernel
theorem triaTab27_c8 : tabCol triaTab27 8 20 = true := by decide +kernel
theorem triaTab27_c9 : tabCol triaTab27 9 19 = true := by decide +kernel
theorem triaTab27_c10 : tabCol triaTab27 10 18 = true := by decide +kernel
theorem triaTab27_c11 : tabCol triaTab27 11 17 = true := by decide +kernel
theorem triaTab27_c12 : tabCol triaTab27 12 16 = true := by decide +kernel
theorem triaTab27_c13 : tabCol triaTab27 13 15 = true := by decide +kernel
theorem triaTab27_c14 : tabCol triaTab27 14 14 = true := by decide +kernel
theorem triaTab27_c15 : tabCol triaTab27 15 13 = true := by decide +kernel
theorem triaTab27_c16 : tabCol triaTab27 16 12 = true := by decide +kernel
theorem triaTab27_c17 : tabCol triaTab27 17 11 = true := by decide +kernel
theorem triaTab27_c18 : tabCol triaTab27 18 10 = true := by decide +kernel
theorem triaTab27_c19 : tabCol triaTab27 19 9 = true := by decide +kernel
theorem triaTab27_c20 : tabCol triaTab27 20 8 = true := by decide +kernel
theorem triaTab27_c21 : tabCol triaTab27 21 7 = true := by decide +kernel
theorem triaTab27_c22 : tabCol triaTab27 22 6 = true := by decide +kernel
theorem triaTab27_c23 : tabCol triaTab27 23 5 = true := by decide +kernel
theorem triaTab27_c24 : tabCol triaTab27 24 4 = true := by decide +kernel
theorem triaTab27_c25 : tabCol triaTab27 25 3 = true := by decide +kernel
theorem triaTab27_c26 : tabCol triaTab27 26 2 = true := by decide +kernel
theorem triaTab27_c27 : tabCol triaTab27 27 1 = true := by decide +kernel
theorem triaTab27_ok : TabOk 27 triaTab27 := ⟨triaTab27_rows,
  allLt_succ (allLt_succ (allLt_succ (allLt_succ (allLt_succ (allLt_succ (allLt_succ (allLt_succ (allLt_succ (allLt_succ (allLt_succ (allLt_succ (allLt_succ (allLt_succ (allLt_succ (allLt_succ (allLt_succ (allLt_succ (allLt_succ (allLt_succ (allLt_succ (allLt_succ (allLt_succ (allLt_succ (allLt_succ (allLt_succ (allLt_succ (allLt_succ (allLt_zero) triaTab27_c0) triaTab27_c1) triaTab27_c2) triaTab27_c3) triaTab27_c4) triaTab27_c5) triaTab27_c6) triaTab27_c7) triaTab27_c8) triaTab27_c9) triaTab27_c10) triaTab27_c11) triaTab27_c12) triaTab27_c13) triaTab27_c14) triaTab27_c15) triaTab27_c16) triaTab27_c17) triaTab27_c18) triaTab27_c19) triaTab27_c20) triaTab27_c21) triaTab27_c22) triaTab27_c23) triaTab27_c24) triaTab27_c25) triaTab27_c26) triaTab27_c27⟩

theorem triaTab28_rows : tabRows triaTab28 = true := by decide +kernel
theorem triaTab28_c0 : tabCol triaTab28 0 29 = true := by decide +kernel
theorem triaTab28_c1 : tabCol triaTab28 1 28 = true := by decide +kernel
theorem triaTab28_c2 : tabCol triaTab28 2 27 = true := by decide +kernel
theorem triaTab28_c3 : tabCol triaTab28 3 26 = true := by decide +kernel
theorem triaTab28_c4 : tabCol triaTab28 4 25 = true := by decide +kernel
theorem triaTab28_c5 : tabCol triaTab28 5 24 = true := by decide +kernel
theorem triaTab28_c6 : tabCol triaTab28 6 23 = true := by decide +kernel
theorem triaTab28_c7 : tabCol triaTab28 7 22 = true := by decide +kernel
theorem triaTab28_c8 : tabCol triaTab28 8 21 = true := by decide +kernel
theorem triaTab28_c9 : tabCol triaTab28 9 20 = true := by decide +kernel
theorem triaTab28_c10 : tabCol triaTab28 10 19 = true := by decide +kernel
theorem triaTab28_c11 : tabCol triaTab28 11 18 = true := by decide +kernel
theorem triaTab28_c12 : tabCol triaTab28 12 17 = true := by decide +kernel
theorem triaTab28_c13 : tabCol triaTab28 13 16 = true := by decide +kernel
theorem triaTab28_c14 : tabCol triaTab28 14 15 = true := by decide +kernel
theorem triaTab28_c15 : tabCol triaTab28 15 14 = true := by decide +kernel
theorem triaTab28_c16 : tabCol triaTab28 16 13 = true := by decide +kernel
theorem triaTab28_c17 : tabCol triaTab28 17 12 = true := by decide +kernel
theorem triaTab28_c18 : tabCol triaTab28 18 11 = true := by decide +kernel
theorem triaTab28_c19 : tabCol triaTab28 19 10 = true := by decide +kernel
theorem triaTab28_c20 : tabCol triaTab28 20 9 = true := by decide +kernel
theorem triaTab28_c21 : tabCol triaTab28 21 8 = true := by decide +kernel
theorem triaTab28_c22 : tabCol triaTab28 22 7 = true := by decide +kernel
theorem triaTab28_c23 : tabCol triaTab28 23 6 = true := by decide +kernel
theorem triaTab28_c24 : tabCol triaTab28 24 5 = true := by decide +kernel
theorem triaTab28_c25 : tabCol triaTab28 25 4 = true := by decide +kernel
theorem triaTab28_c26 : tabCol triaTab28 26 3 = true := by decide +kernel
theorem triaTab28_c27 : tabCol triaTab28 27 2 = true := by decide +kernel
theorem triaTab28_c28 : tabCol triaTab28 28 1 = true := by decide +kernel
theorem triaTab28_ok : TabOk 28 triaTab28 := ⟨triaTab28_rows,
  allLt_succ (allLt_succ (allLt_succ (allLt_succ (allLt_succ (allLt_succ (allLt_succ (allLt_succ (allLt_succ (allLt_succ (allLt_succ (allLt_succ (allLt_succ (allLt_succ (allLt_succ (allLt_succ (allLt_succ (allLt_succ (allLt_succ (allLt_succ (allLt_succ (allLt_succ (allLt_succ (allLt_succ (allLt_succ (allLt_succ (allLt_succ (allLt_succ (allLt_succ (allLt_zero) triaTab28_c0) triaTab28_c1) triaTab28_c2) triaTab28_c3) triaTab28_c4) triaTab28_c5) triaTab28_c6) triaTab28_c7) triaTab28_c8) triaTab28_c9) triaTab28_c10) triaTab28_c11) triaTab28_c12) triaTab28_c13) triaTab28_c14) triaTab28_c15) triaTab28_c16) triaTab28_c17) triaTab28_c18) triaTab28_c19) triaTab28_c20) triaTab28_c21) triaTab28_c22) triaTab28_c23) triaTab28_c24) triaTab28_c25) triaTab28_c26) triaTab28_c27) triaTab28_c28⟩

theorem triaTab29_rows : tabRows triaTab29 = true := by decide +kernel
theorem triaTab29_c0 : tabCol triaTab29 0 30 = true := by decide +kernel
theorem triaTab29_c1 : tabCol triaTab29 1 29 = true := by decide +kernel
theorem triaTab29_c2 : tabCol triaTab29 2 28 = true := by decide +kernel
theorem triaTab29_c3 : tabCol triaTab29 3 27 = true := by decide +kernel
theorem triaTab29_c4 : tabCol triaTab29 4 26 = true := by decide +kernel
theorem triaTab29_c5 : tabCol triaTab29 5 25 = true := by decide +kernel
theorem triaTab29_c6 : tabCol triaTab29 6 24 = true := by decide +kernel
theorem triaTab29_c7 : tabCol triaTab29 7 23 = true := by decide +kernel
theorem triaTab29_c8 : tabCol triaTab29 8 22 = true := by decide +kernel
theorem triaTab29_c9 : tabCol triaTab29 9 21 = true := by decide +kernel
theorem triaTab29_c10 : tabCol triaTab29 10 20 = true := by decide +kernel
theorem triaTab29_c11 : tabCol triaTab29 11 19 = true := by decide +kernel
theorem triaTab29_c12 : tabCol triaTab29 12 18 = true := by decide +kernel
theorem triaTab29_c13 : tabCol triaTab29 13 17 = true := by decide +kernel
theorem triaTab29_c14 : tabCol triaTab29 14 16 = true := by decide +kernel
theorem triaTab29_c15 : tabCol triaTab29 15 15 = true := by decide +kernel
theorem triaTab29_c16 : tabCol triaTab29 16 14 = true := by decide +kernel
theorem triaTab29_c17 : tabCol triaTab29 17 13 = true := by decide +kernel
theorem triaTab29_c18 : tabCol triaTab29 18 12 = true := by decide +kernel
theorem triaTab29_c19 : tabCol triaTab29 19 11 = true := by decide +kernel
theorem triaTab29_c20 : tabCol triaTab29 20 10 = true := by decide +kernel
theorem triaTab29_c21 : tabCol triaTab29 21 9 = true := by decide +kernel
theorem triaTab29_c22 : tabCol triaTab29 22 8 = true := by decide +kernel
theorem triaTab29_c23 : tabCol triaTab29 23 7 = true := by decide +kernel
theorem triaTab29_c24 : tabCol triaTab29 24 6 = true := by decide +kernel
theorem triaTab29_c25 : tabCol triaTab29 25 5 = true := by decide +kernel
theorem triaTab29_c26 : tabCol triaTab29 26 4 = true := by decide +kernel
theorem triaTab29_c27 : tabCol triaTab29 27 3 = true := by decide +kernel
theorem triaTab29_c28 : tabCol triaTab29 28 2 = true := by decide +kernel
theorem triaTab29_c29 : tabCol triaTab29 29 1 = true := by decide +kernel
theorem triaTab29_ok : TabOk 29 triaTab29 := ⟨triaTab29_rows,
  allLt_succ (allLt_succ (allLt_succ (allLt_succ (allLt_succ (allLt_succ (allLt_succ (allLt_succ (allLt_succ (allLt_succ (allLt_succ (allLt_succ (allLt_succ (allLt_succ (allLt_succ (allLt_succ (allLt_succ (allLt_succ (allLt_succ (allLt_succ (allLt_succ (allLt_succ (allLt_succ (allLt_succ (allLt_succ (allLt_succ (allLt_succ (allLt_succ (allLt_succ (allLt_succ (allLt_zero) triaTab29_c0) triaTab29_c1) triaTab29_c2) triaTab29_c3) triaTab29_c4) triaTab29_c5) triaTab29_c6) triaTab29_c7) triaTab29_c8) triaTab29_c9) triaTab29_c10) triaTab29_c11) triaTab29_c12) triaTab29_c13) triaTab29_c14) triaTab29_c15) triaTab29_c16) triaTab29_c17) triaTab29_c18) triaTab29_c19) triaTab29_c20) triaTab29_c21) triaTab29_c22) triaTab29_c23) triaTab29_c24) triaTab29_c25) triaTab29_c26) triaTab29_c27) triaTab29_c28) triaTab29_c29⟩

theorem triaTab30_rows : tabRows triaTab30 = true := by decide +kernel
theorem triaTab30_c0 : tabCol triaTab30 0 31 = true := by decide +kernel
theorem triaTab30_c1 : tabCol triaTab30 1 30 = true := by decide +kernel
theorem triaTab30_c2 : tabCol triaTab30 2 29 = true := by decide +kernel
theorem triaTab30_c3 : tabCol triaTab30 3 28 = true := by decide +kernel
theorem triaTab30_c4 : tabCol triaTab30 4 27 = true := by decide +kernel
theorem triaTab30_c5 : tabCol triaTab30 5 26 = true := by decide +kernel
theorem triaTab30_c6 : tabCol triaTab30 6 25 = true := by decide +kernel
theorem triaTab30_c7 : tabCol triaTab30 7 24 = true := by decide +kernel
theorem triaTab30_c8 : tabCol triaTab30 8 23 = true := by decide +kernel
theorem triaTab30_c9 : tabCol triaTab30 9 22 = true := by decide +kernel
theorem triaTab30_c10 : tabCol triaTab30 10 21 = true := by decide +kernel
theorem triaTab30_c11 : tabCol triaTab30 11 20 = true := by decide +kernel
theorem triaTab30_c12 : tabCol triaTab30 12 19 = true := by decide +kernel
theorem triaTab30_c13 : tabCol triaTab30 13 18 = true := by decide +kernel
theorem triaTab30_c14 : tabCol triaTab30 14 17 = true := by decide +kernel
theorem triaTab30_c15 : tabCol triaTab30 15 16 = true := by decide +kernel
theorem triaTab30_c16 : tabCol triaTab30 16 15 = true := by decide +kernel
theorem triaTab30_c17 : tabCol triaTab30 17 14 = true := by decide +kernel
theorem triaTab30_c18 : tabCol triaTab30 18 13 = true := by decide +kernel
theorem triaTab30_c19 : tabCol triaTab30 19 12 = true := by decide +kernel
theorem triaTab30_c20 : tabCol triaTab30 20 11 = true := by decide +kernel
theorem triaTab30_c21 : tabCol triaTab30 21 10 = true := by decide +kernel
theorem triaTab30_c22 : tabCol triaTab30 22 9 = true := by decide +kernel
theorem triaTab30_c23 : tabCol triaTab30 23 8 = true := by decide +kernel
theorem triaTab30_c24 : tabCol triaTab30 24 7 = true := by decide +kernel
theorem triaTab30_c25 : tabCol triaTab30 25 6 = true := by decide +kernel
theorem triaTab30_c26 : tabCol triaTab30 26 5 = true := by decide +kernel
theorem triaTab30_c27 : tabCol triaTab30 27 4 = true := by decide +kernel
theorem triaTab30_c28 : tabCol triaTab30 28 3 = true := by decide +kernel
theorem triaTab30_c29 : tabCol triaTab30 29 2 = true := by decide +kernel
theorem triaTab30_c30 : tabCol triaTab30 30 1 = true := by decide +kernel
theorem triaTab30_ok : TabOk 30 triaTab30 := ⟨triaTab30_rows,
  allLt_succ (allLt_succ (allLt_succ (allLt_succ (allLt_succ (allLt_succ (allLt_succ (allLt_succ (allLt_succ (allLt_succ (allLt_succ (allLt_succ (allLt_succ (allLt_succ (allLt_succ (allLt_succ (allLt_succ (allLt_succ (allLt_succ (allLt_succ (allLt_succ (allLt_succ (allLt_succ (allLt_succ (allLt_succ (allLt_succ (allLt_succ (allLt_succ (allLt_succ (allLt_succ (allLt_succ (allLt_zero) triaTab30_c0) triaTab30_c1) triaTab30_c2) triaTab30_c3) triaTab30_c4) triaTab30_c5) triaTab30_c6) triaTab30_c7) triaTab30_c8) triaTab30_c9) triaTab30_c10) triaTab30_c11) triaTab30_c12) triaTab30_c13) triaTab30_c14) triaTab30_c15) triaTab30_c16) triaTab30_c17) triaTab30_c18) triaTab30_c19) triaTab30_c20) triaTab30_c21) triaTab30_c22) triaTab30_c23) triaTab30_c24) triaTab30_c25) triaTab30_c26) triaTab30_c27) triaTab30_c28) triaTab30_c29) triaTab30_c30⟩

theorem triaTab31_rows : tabRows triaTab31 = true := by decide +kernel
theorem triaTab31_c0 : tabCol triaTab31 0 32 = true := by decide +kernel
theorem triaTab31_c1 : tabCol triaTab31 1 31 = true := by decide +kernel
theorem triaTab31_c2 : tabCol triaTab31 2 30 = true := by decide +kernel
theorem triaTab31_c3 : tabCol triaTab31 3 29 = true := by decide +kernel
theorem triaTab31_c4 : tabCol triaTab31 4 28 = true := by decide +kernel
theorem triaTab31_c5 : tabCol triaTab31 5 27 = true := by decide +kernel
theorem triaTab31_c6 : tabCol triaTab31 6 26 = true := by decide +kernel
theorem triaTab31_c7 : tabCol triaTab31 7 25 = true := by decide +kernel
theorem triaTab31_c8 : tabCol triaTab31 8 24 = true := by decide +kernel
theorem triaTab31_c9 : tabCol triaTab31 9 23 = true := by decide +kernel
theorem triaTab31_c10 : tabCol triaTab31 10 22 = true := by decide +kernel
theorem triaTab31_c11 : tabCol triaTab31 11 21 = true := by decide +kernel
theorem triaTab31_c12 : tabCol triaTab31 12 20 = true := by decide +kernel
theorem triaTab31_c13 : tabCol triaTab31 13 19 = true := by decide +kernel
theorem triaTab31_c14 : tabCol triaTab31 14 18 = true := by decide +kernel
theorem triaTab31_c15 : tabCol triaTab31 15 17 = true := by decide +kernel
theorem triaTab31_c16 : tabCol triaTab31 16 16 = true := by decide +kernel
theorem triaTab31_c17 : tabCol triaTab31 17 15 = true := by decide +kernel
theorem triaTab31_c18 : tabCol triaTab31 18 14 = true := by decide +kernel
theorem triaTab31_c19 : tabCol triaTab31 19 13 = true := by decide +kernel
theorem triaTab31_c20 : tabCol triaTab31 20 12 = true := by decide +kernel
theorem triaTab31_c21 : tabCol triaTab31 21 11 = true := by decide +kernel
theorem triaTab31_c22 : tabCol triaTab31 22 10 = true := by decide +kernel
theorem triaTab31_c23 : tabCol triaTab31 23 9 = true := by decide +kernel
theorem triaTab31_c24 : tabCol triaTab31 24 8 = true := by decide +kernel
theorem triaTab31_c25 : tabCol triaTab31 25 7 = true := by decide +kernel
theorem triaTab31_c26 : tabCol triaTab31 26 6 = true := by decide +kernel
theorem triaTab31_c27 : tabCol triaTab31 27 5 = true := by decide +kernel
theorem triaTab31_c28 : tabCol triaTab31 28 4 = true := by decide +kernel
theorem triaTab31_c29 : tabCol triaTab31 29 3 = true := by decide +kernel
theorem triaTab31_c30 : tabCol triaTab31 30 2 = true := by decide +kernel
theorem triaTab31_c31 : tabCol triaTab31 31 1 = true := by decide +kernel
theorem triaTab31_ok : TabOk 31 triaTab31 := ⟨triaTab31_rows,
  allLt_succ (allLt_succ (allLt_succ (allLt_succ (allLt_succ (allLt_succ (allLt_succ (allLt_succ (allLt_succ (allLt_succ (allLt_succ (allLt_succ (allLt_succ (allLt_succ (allLt_succ (allLt_succ (allLt_succ (allLt_succ (allLt_succ (allLt_succ (allLt_succ (allLt_succ (allLt_succ (allLt_succ (allLt_succ (allLt_succ (allLt_succ (allLt_succ (allLt_succ (allLt_succ (allLt_succ (allLt_succ (allLt_zero) triaTab31_c0) triaTab31_c1) triaTab31_c2) triaTab31_c3) triaTab31_c4) triaTab31_c5) triaTab31_c6) triaTab31_c7) triaTab31_c8) triaTab31_c9) triaTab31_c10) triaTab31_c11) triaTab31_c12) triaTab31_c13) triaTab31_c14) triaTab31_c15) triaTab31_c16) triaTab31_c17) triaTab31_c18) triaTab31_c19) triaTab31_c20) triaTab31_c21) triaTab31_c22) triaTab31_c23) triaTab31_c24) triaTab31_c25) triaTab31_c26) triaTab31_c27) triaTab31_c28) triaTab31_c29) triaTab31_c30) triaTab31_c31⟩

theorem triaTab32_rows : tabRows triaTab32 = true := by decide +kernel
theorem triaTab32_c0 : tabCol triaTab32 0 33 = true := by decide +kernel
theorem triaTab32_c1 : tabCol triaTab32 1 32 = true := by decide +kernel
theorem triaTab32_c2 : tabCol triaTab32 2 31 = true := by decide +kernel
theorem triaTab32_c3 : tabCol triaTab32 3 30 = true := by decide +kernel
theorem triaTab32_c4 : tabCol triaTab32 4 29 = true := by decide +kernel
theorem triaTab32_c5 : tabCol triaTab32 5 28 = true := by decide +kernel
theorem triaTab32_c6 : tabCol triaTab32 6 27 = true := by decide +kernel
theorem triaTab32_c7 : tabCol triaTab32 7 26 = true := by decide +kernel
theorem triaTab32_c8 : tabCol triaTab32 8 25 = true := by decide +kernel
theorem triaTab32_c9 : tabCol triaTab32 9 24 = true := by decide +kernel
theorem triaTab32_c10 : tabCol triaTab32 10 23 = true := by decide +kernel
theorem triaTab32_c11 : tabCol triaTab32 11 22 = true := by decide +kernel
theorem triaTab32_c12 : tabCol triaTab32 12 21 = true := by decide +kernel
theorem triaTab32_c13 : tabCol triaTab32 13 20 = true := by decide +kernel
theorem triaTab32_c14 : tabCol triaTab32 14 19 = true := by decide +kernel
theorem triaTab32_c15 : tabCol triaTab32 15 18 = true := by decide +kernel
theorem triaTab32_c16 : tabCol triaTab32 16 17 = true := by decide +kernel
theorem triaTab32_c17 : tabCol triaTab32 17 16 = true := by decide +kernel
theorem triaTab32_c18 : tabCol triaTab32 18 15 = true := by decide +kernel
theorem triaTab32_c19 : tabCol triaTab32 19 14 = true := by decide +kernel
theorem triaTab32_c20 : tabCol triaTab32 20 13 = true := by decide +kernel
theorem triaTab32_c21 : tabCol triaTab32 21 12 = true := by decide +kernel
theorem triaTab32_c22 : tabCol triaTab32 22 11 = true := by decide +kernel
theorem triaTab32_c23 : tabCol triaTab32 23 10 = true := by decide +kernel
theorem triaTab32_c24 : tabCol triaTab32 24 9 = true := by decide +kernel
theorem triaTab32_c25 : tabCol triaTab32 25 8 = true := by decide +kernel
theorem triaTab32_c26 : tabCol triaTab32 26 7 = true := by decide +kernel
theorem triaTab32_c27 : tabCol triaTab32 27 6 = true := by decide +kernel
theorem triaTab32_c28 : tabCol triaTab32 28 5 = true := by decide +kernel
theorem triaTab32_c29 : tabCol triaTab32 29 4 = true := by decide +kernel
theorem triaTab32_c30 : tabCol triaTab32 30 3 = true := by decide +kernel
theorem triaTab32_c31 : tabCol triaTab32 31 2 = true := by decide +kernel
theorem triaTab32_c32 : tabCol triaTab32 32 1 = true := by decide +kernel
theorem triaTab32_ok : TabOk 32 triaTab32 := ⟨triaTab32_rows,
  allLt_succ (allLt_succ (allLt_succ (allLt_succ (allLt_succ (allLt_succ (allLt_succ (allLt_succ (allLt_succ (allLt_succ (allLt_succ (allLt_succ (allLt_succ (allLt_succ (allLt_succ (allLt_succ (allLt_succ (allLt_succ (allLt_succ (allLt_succ (allLt_succ (allLt_succ (allLt_succ (allLt_succ (allLt_succ (allLt_succ (allLt_succ (allLt_succ (allLt_succ (allLt_succ (allLt_succ (allLt_succ (allLt_succ (allLt_zero) triaTab32_c0) triaTab32_c1) triaTab32_c2) triaTab32_c3) triaTab32_c4) triaTab32_c5) triaTab32_c6) triaTab32_c7) triaTab32_c8) triaTab32_c9) triaTab32_c10) triaTab32_c11) triaTab32_c12) triaTab32_c13) triaTab32_c14) triaTab32_c15) triaTab32_c16) triaTab32_c17) triaTab32_c18) triaTab32_c19) triaTab32_c20) triaTab32_c21) triaTab32_c22) triaTab32_c23) triaTab32_c24) triaTab32_c25) triaTab32_c26) triaTab32_c27) triaTab32_c28) triaTab32_c29) triaTab32_c30) triaTab32_c31) triaTab32_c32⟩

end Verif
