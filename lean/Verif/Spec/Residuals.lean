import Mathlib.Analysis.SpecialFunctions.Trigonometric.Basic

/-!
# Specification: the self-similar disc-wind equations

The governing equations as the project's own test-suite states them
(`tests/test_odes.py:87-232`), in terms of `β = 5/4 - γ`.  Nothing here refers
to the solver: arguments are the values of the flow variables at one angle and
the derivatives with respect to that angle (primed names).
-/

namespace DiscSolver.Spec

/-- The flow at one angle: values (`x`), their angular derivatives (`x'`). -/
structure Flow where
  θ : ℝ
  B_r : ℝ
  B_φ : ℝ
  B_θ : ℝ
  v_r : ℝ
  v_φ : ℝ
  v_θ : ℝ
  ρ : ℝ
  η_O : ℝ
  η_A : ℝ
  η_H : ℝ
  B_r' : ℝ
  B_φ' : ℝ
  B_θ' : ℝ
  v_r' : ℝ
  v_φ' : ℝ
  v_θ' : ℝ
  ρ' : ℝ

/-- Mass conservation, `tests/test_odes.py:87-102`. -/
noncomputable def continuityRes (β : ℝ) (f : Flow) : ℝ :=
  (5/2 - 2 * β) * f.v_r + f.v_θ' +
    (f.v_θ / f.ρ) * (f.ρ' - f.ρ * Real.tan f.θ)

/-- The equation `continuityRes = 0`. -/
def Continuity (β : ℝ) (f : Flow) : Prop :=
  continuityRes β f = 0

/-- `∇·B = 0`, `tests/test_odes.py:105-114`. -/
noncomputable def solenoidRes (β : ℝ) (f : Flow) : ℝ :=
  f.B_θ' - ((β - 2) * f.B_r + f.B_θ * Real.tan f.θ)

/-- The equation `solenoidRes = 0`. -/
def Solenoid (β : ℝ) (f : Flow) : Prop :=
  solenoidRes β f = 0

/-- Radial momentum, `tests/test_odes.py:117-134`; `K` is the squared Keplerian
speed in units of the sound speed, `a` the squared Alfvén speed. -/
noncomputable def radialRes (β a K : ℝ) (f : Flow) : ℝ :=
  f.v_θ * f.v_r' - 1/2 * f.v_r ^ 2 - f.v_θ ^ 2 - f.v_φ ^ 2 + K - 2 * β -
    a / f.ρ * (f.B_θ * f.B_r' + (β - 1) * (f.B_θ ^ 2 + f.B_φ ^ 2))

/-- The equation `radialRes = 0`. -/
def RadialMomentum (β a K : ℝ) (f : Flow) : Prop :=
  radialRes β a K f = 0

/-- Azimuthal momentum, `tests/test_odes.py:137-153`. -/
noncomputable def azimuthalRes (β a : ℝ) (f : Flow) : ℝ :=
  f.v_θ * f.v_φ' + 1/2 * f.v_r * f.v_φ - Real.tan f.θ * f.v_θ * f.v_φ -
    a / f.ρ * (f.B_θ * f.B_φ' + (1 - β) * f.B_r * f.B_φ -
      Real.tan f.θ * f.B_θ * f.B_φ)

/-- The equation `azimuthalRes = 0`. -/
def AzimuthalMomentum (β a : ℝ) (f : Flow) : Prop :=
  azimuthalRes β a f = 0

/-- Polar momentum, `tests/test_odes.py:156-174`. -/
noncomputable def polarRes (β a : ℝ) (f : Flow) : ℝ :=
  f.v_r * f.v_θ / 2 + f.v_θ * f.v_θ' + Real.tan f.θ * f.v_φ ^ 2 + f.ρ' / f.ρ +
    a / f.ρ * ((β - 1) * f.B_θ * f.B_r + f.B_r * f.B_r' + f.B_φ * f.B_φ' -
      f.B_φ ^ 2 * Real.tan f.θ)

/-- The equation `polarRes = 0`. -/
def PolarMomentum (β a : ℝ) (f : Flow) : Prop :=
  polarRes β a f = 0

/-- Polar induction, `tests/test_odes.py:177-203`, with `b` the direction of the
field. -/
noncomputable def polarInductionRes (β b_r b_φ b_θ : ℝ) (f : Flow) : ℝ :=
  f.v_θ * f.B_r - f.v_r * f.B_θ -
    (f.B_r' - f.B_θ * (1 - β)) * (f.η_O + f.η_A * (1 - b_φ ^ 2)) -
    f.B_φ' * (f.η_H * b_θ + f.η_A * b_r * b_φ) -
    f.B_φ * (
      f.η_H * (b_r * (1 - β) - b_θ * Real.tan f.θ) -
      f.η_A * b_φ * (b_θ * (1 - β) + b_r * Real.tan f.θ))

/-- The equation `polarInductionRes = 0`. -/
def PolarInduction (β b_r b_φ b_θ : ℝ) (f : Flow) : Prop :=
  polarInductionRes β b_r b_φ b_θ f = 0

end DiscSolver.Spec
