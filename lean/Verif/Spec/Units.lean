import Verif.Spec.Mhd

/-!
# Specification: a disc in centimetres, grams and seconds

The equations of `Verif.Spec.Mhd` in Gaussian units: the magnetic force on unit
mass is `(∇×B)×B / (4πρ)` and gravity is that of a point mass.
-/

namespace DiscSolver.Spec

/-- The steady equations of motion of a disc about a point of mass `M`, in
Gaussian units with gravitational constant `G`, at a point. -/
structure GaussianDisc (G M : ℝ) (c : Config) (r θ : ℝ) : Prop where
  /-- `∇·B = 0` -/
  solenoidal : DivFree c r θ
  /-- `∇·(ρu) = 0` -/
  mass : MassConserved c r θ
  /-- the three components of
  `(u·∇)u = -∇p/ρ - (GM/r²) r̂ + (∇×B)×B / (4πρ)` -/
  momentum_r : MomentumR (G * M) (1 / (4 * Real.pi)) c r θ
  momentum_φ : MomentumΦ (1 / (4 * Real.pi)) c r θ
  momentum_θ : MomentumΘ (1 / (4 * Real.pi)) c r θ

/-- The gas is isothermal on spheres, with a sound speed which is everywhere the
same fraction `h` of the speed of a circular orbit. -/
def LocallyIsothermal (G M h : ℝ) (c : Config) : Prop :=
  ∀ r θ, 0 < r → c.p r θ = c.ρ r θ * (h * Real.sqrt (G * M / r)) ^ 2

/-- The squared Alfvén speed `B²/(4πρ)`. -/
noncomputable def alfvenSq (c : Config) (r θ : ℝ) : ℝ :=
  (c.B.at r θ).sq / (4 * Real.pi * c.ρ r θ)

end DiscSolver.Spec
