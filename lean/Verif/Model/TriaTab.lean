import Verif.Model.TriaTab1
import Verif.Model.TriaTab2
import Verif.Model.TriaTab3
import Verif.Model.TriaTab4
import Verif.Model.TriaTab5
import Verif.Model.TriaTab6
import Verif.Model.TriaTab7
import Verif.Model.TriaTab8
import Verif.Model.TriaTab9
import Verif.Model.TriaTab10

/-! Generated by tools/quad_tables.py. -/

namespace Verif

/-- The tabulated rules by their degree; /repo/lib/lf/quad/quad_rules_tria.cc.  There is none of degree 3. -/
def triaTab : ℕ → List TabRow
  | 1 => triaTab1
  | 2 => triaTab2
  | 4 => triaTab4
  | 5 => triaTab5
  | 6 => triaTab6
  | 7 => triaTab7
  | 8 => triaTab8
  | 9 => triaTab9
  | 10 => triaTab10
  | 11 => triaTab11
  | 12 => triaTab12
  | 13 => triaTab13
  | 14 => triaTab14
  | 15 => triaTab15
  | 16 => triaTab16
  | 17 => triaTab17
  | 18 => triaTab18
  | 19 => triaTab19
  | 20 => triaTab20
  | 21 => triaTab21
  | 22 => triaTab22
  | 23 => triaTab23
  | 24 => triaTab24
  | 25 => triaTab25
  | 26 => triaTab26
  | 27 => triaTab27
  | 28 => triaTab28
  | 29 => triaTab29
  | 30 => triaTab30
  | 31 => triaTab31
  | 32 => triaTab32
  | 33 => triaTab33
  | 34 => triaTab34
  | 35 => triaTab35
  | 36 => triaTab36
  | 37 => triaTab37
  | 38 => triaTab38
  | 39 => triaTab39
  | 40 => triaTab40
  | 41 => triaTab41
  | 42 => triaTab42
  | 43 => triaTab43
  | 44 => triaTab44
  | 45 => triaTab45
  | 46 => triaTab46
  | 47 => triaTab47
  | 48 => triaTab48
  | 49 => triaTab49
  | 50 => triaTab50
  | _ => []

end Verif
