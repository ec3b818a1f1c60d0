import Mathlib.Analysis.SpecialFunctions.Trigonometric.Basic
import Mathlib.Analysis.SpecialFunctions.Sqrt
import Verif.Model.State

/-!
# Initial conditions at the midplane

`src/disc_solver/solve/config.py:20-108`.
-/

namespace DiscSolver

/-- The square-root argument of `config.py:25-31`. -/
noncomputable def v_φ_discriminant (v_r η_H η_P norm_kepler_sq a_0 γ : ℝ) : ℝ :=
  norm_kepler_sq - 5/2 + 2 * γ + v_r * (
    a_0 / η_P + v_r / 2 * (
      η_H ^ 2 / (8 * η_P ^ 2) - 1))

/-- `config.py:20-33` (`v_φ_boundary_func`).  `none` is the outcome for a
negative square-root argument: with Python floats `math`-like square roots
raise `ValueError`, which becomes `SolverError`; with numpy floats the result is
NaN, which `define_conditions` turns into `SolverError` (`config.py:99-103`).
Both end in `SolverError`, so one outcome represents them. -/
noncomputable def v_φ_boundary_func (v_r η_H η_P norm_kepler_sq a_0 γ : ℝ) :
    Option ℝ :=
  if v_φ_discriminant v_r η_H η_P norm_kepler_sq a_0 γ < 0 then none
  else some (v_r * η_H / (4 * η_P) +
    Real.sqrt (v_φ_discriminant v_r η_H η_P norm_kepler_sq a_0 γ))

/-- `config.py:36-40` (`B_φ_prime_boundary_func`). -/
noncomputable def B_φ_prime_boundary_func (v_r v_φ a_0 : ℝ) : ℝ :=
  v_φ * v_r / (2 * a_0)

/-- `config.py:43-47` (`E_r_boundary_func`). -/
noncomputable def E_r_boundary_func (v_r v_φ η_P η_H η_perp_sq a_0 : ℝ) : ℝ :=
  - v_φ - v_r / η_P * (η_H + η_perp_sq * v_φ / (2 * a_0))

/-- The numeric part of a `SolutionInput` that `define_conditions` reads
(`file_format/_containers.py:246-285`). -/
structure NumInput where
  start : ℝ
  stop : ℝ
  num_angles : ℕ
  γ : ℝ
  v_rin_on_c_s : ℝ
  v_a_on_c_s : ℝ
  c_s_on_v_k : ℝ
  η_O : ℝ
  η_A : ℝ
  η_H : ℝ
  use_E_r : Bool

/-- The result of `define_conditions`: the arguments of the `InitialConditions`
constructor (`config.py:105-108`). -/
structure Conditions where
  norm_kepler_sq : ℝ
  a_0 : ℝ
  init_con : St
  angles : List ℝ
  γ : ℝ

/-- `numpy.linspace(start, stop, n)` over exact reals. -/
noncomputable def linspace (start stop : ℝ) (n : ℕ) : List ℝ :=
  match n with
  | 0 => []
  | 1 => [start]
  | m + 2 => (List.range (m + 2)).map
      fun (i : ℕ) => start + (i : ℝ) * ((stop - start) / ((m : ℝ) + 1))

/-- `numpy.radians`. -/
noncomputable def radians (x : ℝ) : ℝ := x * (Real.pi / 180)

/-- `config.py:50-108` (`define_conditions`).  `none` is `SolverError`.
Simplifications: exact reals, so the only source of NaN is the square root of a
negative number.  Inputs for which the code divides by zero
(`c_s_on_v_k = 0`, `η_P = 0`, `a_0 = 0`) are not covered by the theorems, which
assume these nonzero. -/
noncomputable def define_conditions (inp : NumInput) : Option Conditions :=
  let ρ : ℝ := 1
  let B_θ : ℝ := 1
  let v_θ : ℝ := 0
  let B_r : ℝ := 0
  let B_φ : ℝ := 0
  let v_r := - inp.v_rin_on_c_s
  let a_0 := inp.v_a_on_c_s ^ 2
  let norm_kepler_sq := 1 / inp.c_s_on_v_k ^ 2
  let γ := inp.γ
  let η_O := inp.η_O
  let η_A := inp.η_A
  let η_H := inp.η_H
  let η_P := η_O + η_A
  let η_perp_sq := η_P ^ 2 + η_H ^ 2
  match v_φ_boundary_func (v_r := v_r) (η_H := η_H) (η_P := η_P)
      (norm_kepler_sq := norm_kepler_sq) (a_0 := a_0) (γ := γ) with
  | none => none
  | some v_φ =>
    let X := if inp.use_E_r then
        E_r_boundary_func (v_r := v_r) (v_φ := v_φ) (η_P := η_P) (η_H := η_H)
          (η_perp_sq := η_perp_sq) (a_0 := a_0)
      else
        B_φ_prime_boundary_func (v_r := v_r) (v_φ := v_φ) (a_0 := a_0)
    let init_con : St :=
      { B_r := B_r, B_φ := B_φ, B_θ := B_θ, v_r := v_r, v_φ := v_φ, v_θ := v_θ,
        ρ := ρ, X := X, η_O := η_O, η_A := η_A, η_H := η_H }
    let angles := (linspace inp.start inp.stop inp.num_angles).map radians
    some { norm_kepler_sq := norm_kepler_sq, a_0 := a_0, init_con := init_con,
           angles := angles, γ := γ }

end DiscSolver
