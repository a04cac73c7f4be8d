import Verif.Model.Timer

/-!
# Specification of timers
-/

namespace Verif

/-- The history of a timer: its construction counts as a call of `Start` or of `Stop`. -/
def timerHistory (startNow : Bool) (r : CpuTimes) (calls : List (TimerOp × CpuTimes)) : List (TimerOp × CpuTimes) :=
  (if startNow then TimerOp.start else TimerOp.stop, r) :: calls

/-- The calls from the last `Start` on (all calls if there is none). -/
def sinceStart : List (TimerOp × CpuTimes) → List (TimerOp × CpuTimes)
  | [] => []
  | c :: l => if ∃ d ∈ l, d.1 = TimerOp.start then sinceStart l else c :: l

/-- The time between the calls in the list, and between the last one and `now`, without the intervals which begin with `Stop`. -/
def countedTime (now : CpuTimes) : List (TimerOp × CpuTimes) → CpuTimes
  | [] => 0
  | [c] => if c.1 = .stop then 0 else now - c.2
  | c :: d :: l => (if c.1 = .stop then 0 else d.2 - c.2) + countedTime now (d :: l)

/-- The arguments of the format string which belong to an elapsed time: seconds of wall clock, user and system time, the sum of the last two, and its ratio to
the wall clock time in percent. -/
def secondsOf (e : CpuTimes) : ℚ × ℚ × ℚ × ℚ × Option ℚ :=
  ((e.1 : ℚ) / 10 ^ 9, (e.2.1 : ℚ) / 10 ^ 9, (e.2.2 : ℚ) / 10 ^ 9, ((e.2.1 + e.2.2 : ℤ) : ℚ) / 10 ^ 9,
    if e.1 = 0 then none else some (100 * ((e.2.1 + e.2.2 : ℤ) : ℚ) / e.1))

end Verif
