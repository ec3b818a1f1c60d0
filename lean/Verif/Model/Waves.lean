import Mathlib.Analysis.SpecialFunctions.Sqrt
import Mathlib.Analysis.SpecialFunctions.Trigonometric.Basic
import Verif.Model.State

/-!
# Wave speeds and Mach numbers

`src/disc_solver/critical_points.py:12-62`, for one row.  The code applies the same
arithmetic to every row of the array.
-/

namespace DiscSolver

/-- The squared speeds returned by `mhd_wave_speeds` (`critical_points.py:12-41`). -/
structure WaveSpeeds where
  slow : ℝ
  alfven : ℝ
  fast : ℝ

/-- `mhd_wave_speeds` (`critical_points.py:12-41`). -/
noncomputable def mhd_wave_speeds (s : St) (sound_speed : ℝ) : WaveSpeeds :=
  let B_sq := s.B_r ^ 2 + s.B_φ ^ 2 + s.B_θ ^ 2
  let cos_sq_psi := s.B_θ ^ 2 / B_sq
  let v_a_sq := B_sq / (4 * Real.pi * s.ρ)
  { slow := 1/2 * (v_a_sq + sound_speed ^ 2 - Real.sqrt (
      (v_a_sq + sound_speed ^ 2) ^ 2 - 4 * v_a_sq * sound_speed ^ 2 * cos_sq_psi)),
    alfven := v_a_sq * cos_sq_psi,
    fast := 1/2 * (v_a_sq + sound_speed ^ 2 + Real.sqrt (
      (v_a_sq + sound_speed ^ 2) ^ 2 - 4 * v_a_sq * sound_speed ^ 2 * cos_sq_psi)) }

/-- The result of `get_mach_numbers` for one row.  `none` is `inf` or NaN, from a
division by a zero speed. -/
structure Machs where
  slow : Option ℝ
  sonic : Option ℝ
  alfven : Option ℝ
  fast : Option ℝ

/-- `sqrt(v_sq / speed_sq)`; `none` when the speed is zero. -/
noncomputable def machOf (v_sq speed_sq : ℝ) : Option ℝ :=
  open Classical in
  if speed_sq = 0 then none else some (Real.sqrt (v_sq / speed_sq))

/-- `get_mach_numbers` (`critical_points.py:44-62`) for one row.  Simplification:
a zero wave speed gives `none`; numpy gives `inf`, or NaN when `v_θ` is zero too. -/
noncomputable def get_mach_numbers (s : St) : Machs :=
  let v_sq := s.v_θ ^ 2
  let w := mhd_wave_speeds s 1
  { slow := machOf v_sq w.slow, sonic := some s.v_θ,
    alfven := machOf v_sq w.alfven, fast := machOf v_sq w.fast }

end DiscSolver
