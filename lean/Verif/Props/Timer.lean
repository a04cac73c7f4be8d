import Verif.Spec.Timer
import Mathlib.Tactic.Abel
import Mathlib.Tactic.FieldSimp
import Mathlib.Tactic.Linarith
import Mathlib.Tactic.NormNum
import Mathlib.Tactic.Positivity
import Mathlib.Tactic.Ring
import Mathlib.Algebra.Order.Monoid.Prod

/-!
# C113: what timers measure and print
-/

namespace Verif

theorem sinceStart_append (h : List (TimerOp × CpuTimes)) (c : TimerOp × CpuTimes) :
    sinceStart (h ++ [c]) = if c.1 = .start then [c] else sinceStart h ++ [c] := by
  induction h with
  | nil => simp [sinceStart]
  | cons d l ih =>
    rw [List.cons_append, sinceStart, ih]
    by_cases hc : c.1 = .start
    · rw [if_pos ⟨c, by simp, hc⟩, if_pos hc, if_pos hc]
    · have : (∃ e ∈ l ++ [c], e.1 = TimerOp.start) ↔ ∃ e ∈ l, e.1 = TimerOp.start := by
        simp [hc]
      simp only [this, if_neg hc, sinceStart]
      split <;> simp

theorem sinceStart_ne_nil {h : List (TimerOp × CpuTimes)} (hh : h ≠ []) : sinceStart h ≠ [] := by
  induction h with
  | nil => exact absurd rfl hh
  | cons d l ih =>
    rw [sinceStart]
    split
    · rename_i h'
      obtain ⟨e, he, -⟩ := h'
      exact ih (List.ne_nil_of_mem he)
    · simp

theorem countedTime_append (now : CpuTimes) (l : List (TimerOp × CpuTimes)) (c : TimerOp × CpuTimes) (hl : l ≠ []) :
    countedTime now (l ++ [c]) = countedTime c.2 l + (if c.1 = .stop then 0 else now - c.2) := by
  induction l with
  | nil => exact absurd rfl hl
  | cons d l ih =>
    cases l with
    | nil => simp [countedTime]
    | cons e l =>
      have := ih (by simp)
      rw [List.cons_append] at this
      rw [List.cons_append, List.cons_append, countedTime, countedTime, this, add_assoc]

theorem Timer.elapsed_def (t : Timer) (now : CpuTimes) : t.elapsed now = if t.isStopped then t.times else now - t.times := rfl

theorem Timer.stop_def (t : Timer) (now : CpuTimes) : t.stop now = if t.isStopped then t else ⟨now - t.times, true⟩ := rfl

theorem Timer.resume_def (t : Timer) (now : CpuTimes) : t.resume now = if t.isStopped then ⟨now - t.times, false⟩ else t := rfl

theorem runTimer_append (b : Bool) (r : CpuTimes) (l : List (TimerOp × CpuTimes)) (c : TimerOp × CpuTimes) :
    runTimer b r (l ++ [c]) = (runTimer b r l).step c := by
  rw [runTimer, List.foldl_append]
  rfl

/-- The statement for `Elapsed`: for every sequence of calls of `Start`, `Stop` and `Resume` on a timer, with any readings of the clock, `Elapsed` returns the
time counted since the last `Start`, in all three components: what passed while the timer was running. -/
theorem C113_elapsed (startNow : Bool) (r : CpuTimes) (calls : List (TimerOp × CpuTimes)) (now : CpuTimes) :
    (runTimer startNow r calls).elapsed now = countedTime now (sinceStart (timerHistory startNow r calls)) := by
  induction calls using List.reverseRecOn generalizing now with
  | nil =>
    cases startNow
    · rfl
    · rfl
  | append_singleton l c ih =>
    have hne : timerHistory startNow r l ≠ [] := by simp [timerHistory]
    have hist : timerHistory startNow r (l ++ [c]) = timerHistory startNow r l ++ [c] := rfl
    rw [runTimer_append, hist, sinceStart_append]
    obtain ⟨op, t⟩ := c
    generalize runTimer startNow r l = s at ih
    cases op with
    | start => rfl
    | stop =>
      rw [if_neg (by simp), countedTime_append _ _ _ (sinceStart_ne_nil hne), if_pos rfl, add_zero, ← ih]
      show (s.stop t).elapsed now = s.elapsed t
      rw [Timer.stop_def, Timer.elapsed_def s]
      by_cases hs : s.isStopped = true
      · rw [if_pos hs, if_pos hs, Timer.elapsed_def, if_pos hs]
      · rw [if_neg hs, if_neg hs]
        rfl
    | resume =>
      rw [if_neg (by simp), countedTime_append _ _ _ (sinceStart_ne_nil hne), if_neg (by simp), ← ih]
      show (s.resume t).elapsed now = s.elapsed t + (now - t)
      rw [Timer.resume_def, Timer.elapsed_def s]
      by_cases hs : s.isStopped = true
      · rw [if_pos hs, if_pos hs]
        show now - (t - s.times) = s.times + (now - t)
        abel
      · rw [if_neg hs, if_neg hs, Timer.elapsed_def, if_neg hs]
        abel

/-- A timer which is started, stopped, resumed twice and asked: of the time between the readings 10 and 40, the part from 15 to 22 is not counted. -/
example :
    (runTimer false (3, 0, 0) [(.start, (7, 0, 0)), (.start, (10, 1, 1)), (.stop, (15, 2, 2)), (.stop, (18, 3, 3)), (.resume, (22, 4, 3)),
      (.resume, (30, 5, 3))]).elapsed (40, 6, 3) = (23, 3, 1) ∧
    countedTime (40, 6, 3) (sinceStart (timerHistory false (3, 0, 0) [(.start, (7, 0, 0)), (.start, (10, 1, 1)), (.stop, (15, 2, 2)),
      (.stop, (18, 3, 3)), (.resume, (22, 4, 3)), (.resume, (30, 5, 3))])) = (23, 3, 1) := by
  decide +kernel

/-- `IsStopped` tells whether the last call (or the construction) stopped the timer. -/
theorem C113_isStopped (startNow : Bool) (r : CpuTimes) (calls : List (TimerOp × CpuTimes)) :
    (runTimer startNow r calls).isStopped = true ↔ ∃ t, (timerHistory startNow r calls).getLast? = some (.stop, t) := by
  induction calls using List.reverseRecOn with
  | nil =>
    cases startNow
    · exact ⟨fun _ => ⟨r, rfl⟩, fun _ => rfl⟩
    · constructor
      · intro h
        exact absurd h (by simp [runTimer, Timer.make, Timer.start])
      · rintro ⟨t, ht⟩
        simp [timerHistory] at ht
  | append_singleton l c ih =>
    have hist : timerHistory startNow r (l ++ [c]) = timerHistory startNow r l ++ [c] := rfl
    rw [runTimer_append, hist, List.getLast?_concat]
    clear ih
    obtain ⟨op, t⟩ := c
    generalize runTimer startNow r l = s
    cases op with
    | start => simp [Timer.step, Timer.start]
    | stop =>
      simp only [Timer.step, Timer.stop_def]
      constructor
      · intro _
        exact ⟨t, rfl⟩
      · intro _
        split <;> simp_all
    | resume =>
      simp only [Timer.step, Timer.resume_def]
      constructor
      · intro h
        split at h <;> simp_all
      · rintro ⟨t', ht'⟩
        simp at ht'

/-- With a clock which does not run backwards the elapsed time is not negative, and asking later gives no less. -/
theorem C113_monotone (startNow : Bool) (r : CpuTimes) (calls : List (TimerOp × CpuTimes)) (now later : CpuTimes)
    (hclock : ((timerHistory startNow r calls).map Prod.snd ++ [now, later]).Pairwise (· ≤ ·)) :
    0 ≤ (runTimer startNow r calls).elapsed now ∧
      (runTimer startNow r calls).elapsed now ≤ (runTimer startNow r calls).elapsed later := by
  have hlast : now ≤ later := by
    have := (List.pairwise_append.1 hclock).2.1
    simpa using this
  constructor
  · have hsub : ∀ h : List (TimerOp × CpuTimes), (sinceStart h).Sublist h := by
      intro h
      induction h with
      | nil => exact List.Sublist.refl _
      | cons d l ih =>
        rw [sinceStart]
        split
        · exact ih.cons d
        · exact List.Sublist.refl _
    have hpw : ((sinceStart (timerHistory startNow r calls)).map Prod.snd ++ [now]).Pairwise (· ≤ ·) :=
      hclock.sublist (List.Sublist.append ((hsub _).map _) (by simp))
    rw [C113_elapsed]
    have key : ∀ h : List (TimerOp × CpuTimes), (h.map Prod.snd ++ [now]).Pairwise (· ≤ ·) → 0 ≤ countedTime now h := by
      intro h
      induction h with
      | nil => intro _; exact le_refl _
      | cons c l ih =>
        intro hp
        rw [List.map_cons, List.cons_append, List.pairwise_cons] at hp
        cases l with
        | nil =>
          rw [countedTime]
          split
          · exact le_refl _
          · exact sub_nonneg.2 (hp.1 now (by simp))
        | cons d l =>
          rw [countedTime]
          refine add_nonneg ?_ (ih hp.2)
          split
          · exact le_refl _
          · exact sub_nonneg.2 (hp.1 d.2 (by simp))
    exact key _ hpw
  · rw [Timer.elapsed_def, Timer.elapsed_def]
    split
    · exact le_refl _
    · exact sub_le_sub_right hlast _

/-- The hypothesis is met by a timer which is stopped and resumed. -/
example : ((timerHistory true (1, 0, 0) [(.stop, (2, 1, 0)), (.resume, (4, 1, 1))]).map Prod.snd ++ [(5, 2, 1), (5, 2, 2)]).Pairwise
    (· ≤ · : CpuTimes → CpuTimes → Prop) := by
  decide +kernel

theorem formatArgs_eq (t : Timer) : t.formatArgs = secondsOf t.times := by
  have h9 : (1000000000 : ℚ) = 10 ^ 9 := by norm_num
  simp only [Timer.formatArgs, secondsOf, h9]
  refine Prod.ext rfl (Prod.ext rfl (Prod.ext rfl (Prod.ext ?_ ?_)))
  · push_cast
    ring
  · by_cases h : t.times.1 = 0
    · simp [h]
    · have hq : (t.times.1 : ℚ) ≠ 0 := by exact_mod_cast h
      have h2 : (t.times.1 : ℚ) / 10 ^ 9 ≠ 0 := by positivity
      simp only [if_neg h, if_neg h2]
      congr 1
      push_cast
      field_simp
      ring

/-- What holds of the statement for `Format`: when the timer is stopped, the named arguments are the documented functions of `Elapsed`. -/
theorem C113_format_partial (t : Timer) (now : CpuTimes) (hs : t.isStopped = true) : t.formatArgs = secondsOf (t.elapsed now) := by
  rw [formatArgs_eq, Timer.elapsed_def, if_pos hs]

/-- Two seconds of wall clock time with one second of user and half a second of system time are 75 %. -/
example : (runTimer true (5000000000, 0, 0) [(.stop, (7000000000, 1000000000, 500000000))]).formatArgs = (2, 1, 1 / 2, 3 / 2, some 75) := by
  decide +kernel

/-- What `Format` prints for a running timer: the reading of the clock at which the timer would have started, had it never been stopped. It does not depend on
the present time, and agrees with the documentation at one moment only. -/
theorem C113_format_running (t : Timer) (now : CpuTimes) (hs : t.isStopped = false) :
    t.formatArgs = secondsOf (now - t.elapsed now) ∧ (t.formatArgs = secondsOf (t.elapsed now) → now.1 = 2 * (now - t.elapsed now).1) := by
  have he : t.elapsed now = now - t.times := by rw [Timer.elapsed_def, if_neg (by simp [hs])]
  rw [formatArgs_eq, he, sub_sub_cancel]
  refine ⟨rfl, fun h => ?_⟩
  have h1 : (t.times.1 : ℚ) / 10 ^ 9 = ((now - t.times).1 : ℚ) / 10 ^ 9 := congrArg Prod.fst h
  have h2 : t.times.1 = (now - t.times).1 := by
    have : (t.times.1 : ℚ) = ((now - t.times).1 : ℚ) := by
      field_simp at h1
      exact h1
    exact_mod_cast this
  have h3 : (now - t.times).1 = now.1 - t.times.1 := rfl
  omega

/-- The statement for `Format` does not hold for running timers: a timer started 5 s after the epoch of the clock prints 5 s after one second. -/
theorem C113_format_not : ¬ ∀ (t : Timer) (now : CpuTimes), t.formatArgs = secondsOf (t.elapsed now) := by
  intro h
  have := (C113_format_running (Timer.make true (5000000000, 0, 0)) (6000000000, 0, 0) rfl).2 (h _ _)
  exact absurd this (by decide)

/-- The statement for the destructor of `AutoTimer`: it reports, once and to the stream or logger passed to the constructor, the time between construction and
destruction; `Elapsed` returns the time since construction. -/
theorem C113_autoTimer (out : ReportTo) (r now : CpuTimes) (hout : ∀ level, out ≠ .logger none level) :
    (AutoTimer.make out r).destroy now = some [(out, secondsOf (now - r))] ∧ (AutoTimer.make out r).elapsed now = now - r := by
  refine ⟨?_, rfl⟩
  have hd : (AutoTimer.make out r).timer.stop now = ⟨now - r, true⟩ := rfl
  have hns : (!(AutoTimer.make out r).timer.isStopped) = true := rfl
  rw [AutoTimer.destroy, if_pos hns, hd]
  cases out with
  | stream s =>
    simp only [AutoTimer.report, AutoTimer.make, formatArgs_eq]
    rfl
  | logger l level =>
    cases l with
    | none => exact absurd rfl (hout level)
    | some l =>
      simp only [AutoTimer.report, AutoTimer.make, formatArgs_eq]
      rfl

/-- The statement for `Report` does not hold: called by the user, it does not report the time since construction but the reading of the clock at the
construction. -/
theorem C113_report_not (s : ℕ) (r : CpuTimes) :
    (AutoTimer.make (.stream s) r).report = some (.stream s, secondsOf r) ∧
    ¬ ∀ now : CpuTimes, (AutoTimer.make (.stream s) r).report = some (.stream s, secondsOf ((AutoTimer.make (.stream s) r).elapsed now)) := by
  have h0 : (AutoTimer.make (.stream s) r).report = some (.stream s, secondsOf r) := by
    simp only [AutoTimer.report, AutoTimer.make, formatArgs_eq]
    rfl
  refine ⟨h0, fun h => ?_⟩
  have h1 := h (2 * r.1 + 1, 0, 0)
  rw [h0] at h1
  have h2 : secondsOf r = secondsOf ((2 * r.1 + 1, 0, 0) - r) := by
    have := congrArg (fun o => o.map Prod.snd) h1
    exact Option.some.inj this
  have h3 : (r.1 : ℚ) / 10 ^ 9 = ((2 * r.1 + 1 - r.1 : ℤ) : ℚ) / 10 ^ 9 := congrArg Prod.fst h2
  have h4 : (r.1 : ℚ) = ((2 * r.1 + 1 - r.1 : ℤ) : ℚ) := by
    field_simp at h3
    exact h3
  have h5 : r.1 = 2 * r.1 + 1 - r.1 := by exact_mod_cast h4
  omega

/-- `AutoTimer`s can be moved, but the destructor of the object moved from is not harmless: with a logger it dereferences a null pointer, with a stream it
reports as well. -/
theorem C113_move_not (r now later : CpuTimes) (s l level : ℕ) :
    ((AutoTimer.make (.logger (some l) level) r).move.2).destroy later = none ∧
    ((AutoTimer.make (.stream s) r).move.1).destroy now = some [(.stream s, secondsOf (now - r))] ∧
    ((AutoTimer.make (.stream s) r).move.2).destroy later = some [(.stream s, secondsOf (later - r))] :=
  ⟨rfl, (C113_autoTimer (.stream s) r now (by simp)).1, (C113_autoTimer (.stream s) r later (by simp)).1⟩

/-- The conversion of ticks: if the number of ticks per second is known and at most `10⁹`, then the user and system times are the ticks times the rounded length of a
tick: they are below the exact value by less than one nanosecond per tick, and exact if the length of a tick is a whole number of nanoseconds. -/
theorem C113_ticks (wall clk : ℤ) (tm : Tms) (hclk : 0 < clk) (hclk' : clk ≤ 10 ^ 9) :
    ∃ q : ℤ, 0 < q ∧ q * clk ≤ 10 ^ 9 ∧ 10 ^ 9 < (q + 1) * clk ∧ (clk ∣ 10 ^ 9 → q * clk = 10 ^ 9) ∧
      getCpuTimes wall (some tm) clk = (wall, (tm.utime + tm.cutime) * q, (tm.stime + tm.cstime) * q) := by
  have h9 : (1000000000 : ℤ) = 10 ^ 9 := by norm_num
  have hq : 0 < (1000000000 : ℤ) / clk := by
    rw [h9]
    exact Int.lt_of_lt_of_le one_pos ((Int.le_ediv_iff_mul_le hclk).2 (by simpa using hclk'))
  have hf : tickFactor clk = 1000000000 / clk := by
    rw [tickFactor, if_neg (by omega)]
    exact if_neg (by omega)
  refine ⟨1000000000 / clk, hq, ?_, ?_, ?_, ?_⟩
  · rw [← h9]
    exact Int.ediv_mul_le _ (by omega)
  · rw [← h9]
    exact Int.lt_ediv_add_one_mul_self _ hclk
  · intro hd
    rw [h9]
    exact Int.ediv_mul_cancel hd
  · simp only [getCpuTimes, hf]
    rw [if_pos (by omega)]

/-- 100 ticks per second. -/
example (wall : ℤ) : getCpuTimes wall (some ⟨250, 0, 7, 3⟩) 100 = (wall, 2500000000, 100000000) := by
  simp [getCpuTimes, tickFactor]

/-- If the processor times are unknown (`-1` in the readings), the elapsed times are not marked as unknown: they are zero. -/
theorem C113_unknown_not (w w' clk : ℤ) :
    (Timer.make true (getCpuTimes w none clk)).elapsed (getCpuTimes w' none clk) = (w' - w, 0, 0) := rfl

end Verif
