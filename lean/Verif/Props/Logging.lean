import Mathlib.Tactic.Common
import Verif.Model.Logging

/-!
# C65: which records are shown
-/

namespace DiscSolver.Logging

/-- The levels from the least to the most important. -/
def importance : List Level := [.debug, .info, .notice, .warning, .error, .critical]

/-- `b` is at least as important as `a`. -/
def AtLeast (b a : Level) : Prop := importance.idxOf a ≤ importance.idxOf b

theorem num_le (a b : Level) : a.num ≤ b.num ↔ AtLeast b a := by
  unfold AtLeast
  cases a <;> cases b <;> decide

theorem num_lt (a b : Level) : a.num < b.num ↔ ¬ AtLeast a b := by
  rw [← num_le, Nat.not_le]

/-- The least level the user asked to see on the standard error. -/
def asked (a : Args) : Level :=
  if a.quiet then .error else if a.verbose then .debug else a.stderr_level.getD .notice

theorem fileHandler_no_stderr (a : Args) : (fileHandler a).sink ≠ some .stderr := by
  unfold fileHandler
  rcases a.log_file with _ | n
  · simp
  · by_cases h : n = ""
    · simp [h]
    · simp [h]

theorem walk_file_null (a : Args) (r : Level) (h0 : Handler) (hn : h0.sink = none)
    (hl : h0.level = .debug) :
    walk r [fileHandler a, h0] = if r.num < (fileHandler a).level.num then []
      else (fileHandler a).sink.toList := by
  have h1 : ¬ r.num < Level.debug.num := by cases r <;> decide
  unfold fileHandler
  rcases a.log_file with _ | n
  · simp [walk, h1]
  · by_cases h : n = ""
    · simp [walk, h, h1]
    · simp [walk, h, h1, hn, hl]

/-- C65. A record is shown on the standard error exactly when it is at least as
important as asked for: errors with `--quiet`, everything with `--verbose`, otherwise
the requested level; and at most once. -/
theorem stderr_exact (a : Args) (r : Level) :
    (Sink.stderr ∈ written a r ↔ AtLeast r (asked a)) ∧
    (written a r).count .stderr ≤ 1 := by
  rw [← num_le]
  have hs : (stderrHandler a).sink = some .stderr ∧ (stderrHandler a).level = asked a := by
    unfold stderrHandler asked
    by_cases h1 : a.quiet = true
    · simp [h1]
    · by_cases h2 : a.verbose = true
      · simp [h1, h2]
      · simp [h1, h2]
  have hw := walk_file_null a r { sink := none } rfl rfl
  have hno : Sink.stderr ∉ walk r [fileHandler a, { sink := none }] := by
    rw [hw]
    split
    · simp
    · have := fileHandler_no_stderr a
      rcases h : (fileHandler a).sink with _ | s
      · simp
      · rw [h] at this
        simpa [eq_comm] using this
  have e : written a r = walk r (stderrHandler a :: [fileHandler a, { sink := none }]) := rfl
  rw [e, walk, hs.1, hs.2]
  by_cases h : r.num < (asked a).num
  · rw [if_pos h]
    refine ⟨⟨fun h' => absurd h' hno, fun h' => by omega⟩, ?_⟩
    rw [List.count_eq_zero_of_not_mem hno]
    omega
  · rw [if_neg h]
    simp only
    refine ⟨⟨fun _ => by omega, fun _ => by simp⟩, ?_⟩
    rw [List.count_cons_self]
    split
    · rw [List.count_eq_zero_of_not_mem hno]
      omega
    · simp

/-- C65. Without `--quiet` and `--verbose` the log file gets exactly the records of its
own level and above, whatever is shown on the standard error. -/
theorem file_exact_partial (a : Args) (r : Level) (n : String) (hn : n ≠ "")
    (hf : a.log_file = some n) (hq : a.quiet = false) (hv : a.verbose = false) :
    Sink.file n ∈ written a r ↔ AtLeast r (a.log_file_level.getD .debug) := by
  rw [← num_le]
  have e : written a r = walk r (stderrHandler a :: [fileHandler a, { sink := none }]) := rfl
  have hw := walk_file_null a r { sink := none } rfl rfl
  have hfh : fileHandler a =
      { sink := some (.file n), level := a.log_file_level.getD .debug, bubble := true } := by
    simp [fileHandler, hf, hn]
  rw [hfh] at hw
  rw [e, walk, hfh, hw]
  simp only [stderrHandler, hq, hv, Bool.false_eq_true, if_false, if_true]
  by_cases h : r.num < (a.log_file_level.getD .debug).num
  · simp only [h, if_true]
    split <;> simp [h]
  · simp only [h, if_false]
    split <;> simp <;> omega

/-- C65. With `--verbose` nothing at all reaches the log file. -/
theorem verbose_file_empty (a : Args) (r : Level) (hq : a.quiet = false)
    (hv : a.verbose = true) : written a r = [.stderr] := by
  have e : written a r = walk r (stderrHandler a :: [fileHandler a, { sink := none }]) := rfl
  have h1 : ¬ r.num < Level.debug.num := by cases r <;> decide
  rw [e, walk]
  simp [stderrHandler, hq, hv, h1]

/-- C65. With `--quiet` the log file gets the records of its level, except the errors:
those which are shown are missing from the file. -/
theorem quiet_file (a : Args) (r : Level) (n : String) (hn : n ≠ "")
    (hf : a.log_file = some n) (hq : a.quiet = true) :
    Sink.file n ∈ written a r ↔
      AtLeast r (a.log_file_level.getD .debug) ∧ ¬ AtLeast r .error := by
  rw [← num_le, ← num_lt]
  have e : written a r = walk r (stderrHandler a :: [fileHandler a, { sink := none }]) := rfl
  have hw := walk_file_null a r { sink := none } rfl rfl
  have hfh : fileHandler a =
      { sink := some (.file n), level := a.log_file_level.getD .debug, bubble := true } := by
    simp [fileHandler, hf, hn]
  rw [hfh] at hw
  rw [e, walk, hfh, hw]
  simp only [stderrHandler, hq, if_true]
  by_cases h2 : r.num < Level.error.num
  · simp only [h2, if_true, and_true]
    split <;> simp <;> omega
  · simp [h2]

example := file_exact_partial { log_file := some "out.log" } .info "out.log" (by decide) rfl
  rfl rfl
example := verbose_file_empty { verbose := true, log_file := some "out.log" } .critical rfl rfl
example := quiet_file { quiet := true, log_file := some "out.log" } .error "out.log"
  (by decide) rfl rfl

end DiscSolver.Logging
