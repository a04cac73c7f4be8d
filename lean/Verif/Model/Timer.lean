import Mathlib.Algebra.Group.Prod
import Mathlib.Algebra.Order.Ring.Rat

/-!
# Model of `lf::base::Timer` and `lf::base::AutoTimer`

A clock reading is passed to every function which reads the clock.  Durations (64 bit counts of nanoseconds) are integers.
-/

namespace Verif

/-- `Timer::cpu_times`: wall clock time, user time, system time in nanoseconds; /repo/lib/lf/base/timer.h:70-94. -/
abbrev CpuTimes := ℤ × ℤ × ℤ

/-- `tick_factor()`, from the number of ticks per second; /repo/lib/lf/base/timer.cc:28-43.  `-1` if unknown.  The result is stored in a static variable by the
program, as it does not change. -/
def tickFactor (clkTck : ℤ) : ℤ :=
  if clkTck ≤ 0 then -1 else
  let f := 1000000000 / clkTck
  if f = 0 then -1 else f

/-- The result of the system call `times`: `tms_utime`, `tms_cutime`, `tms_stime`, `tms_cstime`, in ticks. -/
structure Tms where
  utime : ℤ
  cutime : ℤ
  stime : ℤ
  cstime : ℤ

/-- `get_cpu_times`, from the wall clock, the result of `times` (`none`: error) and the number of ticks per second;
/repo/lib/lf/base/timer.cc:46-82, without the branch for Windows. -/
def getCpuTimes (wall : ℤ) (tms : Option Tms) (clkTck : ℤ) : CpuTimes :=
  match tms with
  | none => (wall, -1, -1)
  | some tm =>
    let system := tm.stime + tm.cstime
    let user := tm.utime + tm.cutime
    let factor := tickFactor clkTck
    if factor ≠ -1 then (wall, user * factor, system * factor) else (wall, -1, -1)

/-- Data members; /repo/lib/lf/base/timer.h:168-169. -/
structure Timer where
  times : CpuTimes
  isStopped : Bool

namespace Timer

/-- `Timer::Start()`; /repo/lib/lf/base/timer.cc:114-117. -/
def start (_t : Timer) (now : CpuTimes) : Timer := ⟨now, false⟩

/-- Constructor; /repo/lib/lf/base/timer.h:101-110. -/
def make (startNow : Bool) (now : CpuTimes) : Timer :=
  if startNow then (⟨(0, 0, 0), false⟩ : Timer).start now else ⟨(0, 0, 0), true⟩

/-- `Timer::Elapsed()`; /repo/lib/lf/base/timer.cc:86-98. -/
def elapsed (t : Timer) (now : CpuTimes) : CpuTimes :=
  if t.isStopped then t.times else (now.1 - t.times.1, now.2.1 - t.times.2.1, now.2.2 - t.times.2.2)

/-- `Timer::Stop()`; /repo/lib/lf/base/timer.cc:119-130. -/
def stop (t : Timer) (now : CpuTimes) : Timer :=
  if t.isStopped then t else ⟨(now.1 - t.times.1, now.2.1 - t.times.2.1, now.2.2 - t.times.2.2), true⟩

/-- `Timer::Resume()`; /repo/lib/lf/base/timer.cc:132-140. -/
def resume (t : Timer) (now : CpuTimes) : Timer :=
  if t.isStopped then
    let current := t.times
    let t' := t.start now
    { t' with times := (t'.times.1 - current.1, t'.times.2.1 - current.2.1, t'.times.2.2 - current.2.2) }
  else t

/-- The arguments `w`, `u`, `s`, `t`, `p` of the format string in `Timer::Format`, in this order (`p` is `none` for a division by zero);
/repo/lib/lf/base/timer.cc:100-112. -/
def formatArgs (t : Timer) : ℚ × ℚ × ℚ × ℚ × Option ℚ :=
  let sec : ℚ := 1000000000
  let wallSec := (t.times.1 : ℚ) / sec
  let total := t.times.2.2 + t.times.2.1
  let totalSec := (total : ℚ) / sec
  let percent := if wallSec = 0 then none else some (totalSec / wallSec * 100)
  (wallSec, (t.times.2.1 : ℚ) / sec, (t.times.2.2 : ℚ) / sec, totalSec, percent)

end Timer

/-- The calls which change a timer. -/
inductive TimerOp
  | start
  | stop
  | resume
  deriving DecidableEq

/-- One call. -/
def Timer.step (t : Timer) (c : TimerOp × CpuTimes) : Timer :=
  match c.1 with
  | .start => t.start c.2
  | .stop => t.stop c.2
  | .resume => t.resume c.2

/-- All calls of a program, on a timer constructed when the clock shows `r`. -/
def runTimer (startNow : Bool) (r : CpuTimes) (calls : List (TimerOp × CpuTimes)) : Timer :=
  calls.foldl Timer.step (Timer.make startNow r)

/-- `AutoTimer::output_`: a stream, or a pointer to a logger (`none`: null) with a level; /repo/lib/lf/base/timer.h:270-273. -/
inductive ReportTo
  | stream (s : ℕ)
  | logger (l : Option ℕ) (level : ℕ)
  deriving DecidableEq

/-- `AutoTimer`; /repo/lib/lf/base/timer.h:266-274.  The format string is not modelled, a report is given by the arguments of the format string. -/
structure AutoTimer where
  timer : Timer
  output : ReportTo

/-- What is written, and where. -/
abbrev Reported := ReportTo × (ℚ × ℚ × ℚ × ℚ × Option ℚ)

namespace AutoTimer

/-- The constructors start the timer (`timer_` is default constructed); /repo/lib/lf/base/timer.cc:142-151. -/
def make (output : ReportTo) (now : CpuTimes) : AutoTimer := ⟨Timer.make true now, output⟩

/-- `AutoTimer::Report()`; /repo/lib/lf/base/timer.cc:177-184.  `none`: null pointer dereferenced. -/
def report (a : AutoTimer) : Option Reported :=
  match a.output with
  | .stream s => some (.stream s, a.timer.formatArgs)
  | .logger none _ => none
  | .logger (some l) level => some (.logger (some l) level, a.timer.formatArgs)

/-- `AutoTimer::Elapsed()`; /repo/lib/lf/base/timer.cc:186-188. -/
def elapsed (a : AutoTimer) (now : CpuTimes) : CpuTimes := a.timer.elapsed now

/-- Destructor, with the list of what it reports; /repo/lib/lf/base/timer.cc:153-163.  `none`: null pointer dereferenced (this is no exception, so it is not
caught). -/
def destroy (a : AutoTimer) (now : CpuTimes) : Option (List Reported) :=
  if !a.timer.isStopped then do
    let r ← report { a with timer := a.timer.stop now }
    some [r]
  else some []

/-- Move constructor (`= default`): the new object and what is left of the old one.  The members of `Timer` and the pointer to a stream are copied, the shared
pointer is moved and leaves a null pointer; /repo/lib/lf/base/timer.h:217. -/
def move (a : AutoTimer) : AutoTimer × AutoTimer :=
  (a, { a with output := match a.output with
    | .stream s => .stream s
    | .logger _ level => .logger none level })

end AutoTimer

end Verif
