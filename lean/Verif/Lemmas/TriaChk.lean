import Verif.Lemmas.TriaChk1
import Verif.Lemmas.TriaChk2
import Verif.Lemmas.TriaChk3
import Verif.Lemmas.TriaChk4
import Verif.Lemmas.TriaChk5
import Verif.Lemmas.TriaChk6
import Verif.Lemmas.TriaChk7
import Verif.Lemmas.TriaChk8
import Verif.Lemmas.TriaChk9
import Verif.Lemmas.TriaChk10
import Verif.Model.TriaTab

/-! Generated by tools/quad_tables.py. -/

namespace Verif

theorem triaTab_ok : ∀ d, 1 ≤ d → d ≤ 50 → d ≠ 3 → TabOk d (triaTab d)
  | 1, _, _, _ => triaTab1_ok
  | 2, _, _, _ => triaTab2_ok
  | 4, _, _, _ => triaTab4_ok
  | 5, _, _, _ => triaTab5_ok
  | 6, _, _, _ => triaTab6_ok
  | 7, _, _, _ => triaTab7_ok
  | 8, _, _, _ => triaTab8_ok
  | 9, _, _, _ => triaTab9_ok
  | 10, _, _, _ => triaTab10_ok
  | 11, _, _, _ => triaTab11_ok
  | 12, _, _, _ => triaTab12_ok
  | 13, _, _, _ => triaTab13_ok
  | 14, _, _, _ => triaTab14_ok
  | 15, _, _, _ => triaTab15_ok
  | 16, _, _, _ => triaTab16_ok
  | 17, _, _, _ => triaTab17_ok
  | 18, _, _, _ => triaTab18_ok
  | 19, _, _, _ => triaTab19_ok
  | 20, _, _, _ => triaTab20_ok
  | 21, _, _, _ => triaTab21_ok
  | 22, _, _, _ => triaTab22_ok
  | 23, _, _, _ => triaTab23_ok
  | 24, _, _, _ => triaTab24_ok
  | 25, _, _, _ => triaTab25_ok
  | 26, _, _, _ => triaTab26_ok
  | 27, _, _, _ => triaTab27_ok
  | 28, _, _, _ => triaTab28_ok
  | 29, _, _, _ => triaTab29_ok
  | 30, _, _, _ => triaTab30_ok
  | 31, _, _, _ => triaTab31_ok
  | 32, _, _, _ => triaTab32_ok
  | 33, _, _, _ => triaTab33_ok
  | 34, _, _, _ => triaTab34_ok
  | 35, _, _, _ => triaTab35_ok
  | 36, _, _, _ => triaTab36_ok
  | 37, _, _, _ => triaTab37_ok
  | 38, _, _, _ => triaTab38_ok
  | 39, _, _, _ => triaTab39_ok
  | 40, _, _, _ => triaTab40_ok
  | 41, _, _, _ => triaTab41_ok
  | 42, _, _, _ => triaTab42_ok
  | 43, _, _, _ => triaTab43_ok
  | 44, _, _, _ => triaTab44_ok
  | 45, _, _, _ => triaTab45_ok
  | 46, _, _, _ => triaTab46_ok
  | 47, _, _, _ => triaTab47_ok
  | 48, _, _, _ => triaTab48_ok
  | 49, _, _, _ => triaTab49_ok
  | 50, _, _, _ => triaTab50_ok
  | 0, h, _, _ => absurd h (by decide)
  | 3, _, _, h => absurd rfl h
  | n + 51, _, h, _ => absurd h (by omega)

end Verif
